import Verif.Data.Chars

/-! Generated by `tools/gen_template.py` from `message/data/message_template.msg`: part 4. -/

namespace Pyogp.Embedded


/-- Lines of `message_template.msg` up to the end of `TransferInfo`. -/
def c180 : List (List Char) :=
  [chars! "",
   chars! "// Return info about a transfer/initiate transfer (source->target)",
   chars! "// Possibly should have a Params field like above",
   chars! "{",
   chars! "\tTransferInfo Low 154 NotTrusted Zerocoded",
   chars! "\t{",
   chars! "\t\tTransferInfo\t\tSingle",
   chars! "\t\t{\tTransferID\t\tLLUUID\t}",
   chars! "\t\t{\tChannelType\t\tS32\t}",
   chars! "\t\t{\tTargetType\t\tS32\t}",
   chars! "\t\t{\tStatus\t\t\tS32\t}",
   chars! "\t\t{\tSize\t\t\tS32\t}",
   chars! "\t\t{\tParams\t\t\tVariable\t2\t}",
   chars! "\t}",
   chars! "}"]

/-- `TransferInfo` as the parser creates it. -/
def r180 : RawTemplate :=
  ⟨"TransferInfo", .low, 154, [255, 255, 154], some .notTrusted, some .zerocoded, some .notDeprecated,
    [⟨"TransferInfo", .single, 0, [⟨"Params", some .variable, some 2⟩, ⟨"Size", some .s32, some 4⟩, ⟨"Status", some .s32, some 4⟩, ⟨"TargetType", some .s32, some 4⟩, ⟨"ChannelType", some .s32, some 4⟩, ⟨"TransferID", some .uuid, some 16⟩]⟩]⟩

/-- `TransferInfo` in file order. -/
def t180 : Template :=
  ⟨"TransferInfo", .low, 154, [], some .notTrusted, some .zerocoded, some .notDeprecated,
    [⟨"TransferInfo", .single, 0, [⟨"TransferID", .uuid, 16⟩, ⟨"ChannelType", .s32, 4⟩, ⟨"TargetType", .s32, 4⟩, ⟨"Status", .s32, 4⟩, ⟨"Size", .s32, 4⟩, ⟨"Params", .variable, 2⟩]⟩]⟩

theorem p180 : ChunkOk c180 r180 := by intro v older; kernel_rfl
theorem k180 : r180.known = some t180 := by kernel_rfl
theorem n180 : t180.name = String.ofList ['T', 'r', 'a', 'n', 's', 'f', 'e', 'r', 'I', 'n', 'f', 'o'] := by kernel_rfl

/-- The names of the blocks and variables of `TransferInfo`. -/
def b180 : List (List Char × List (List Char)) :=
  [(['T', 'r', 'a', 'n', 's', 'f', 'e', 'r', 'I', 'n', 'f', 'o'], [['T', 'r', 'a', 'n', 's', 'f', 'e', 'r', 'I', 'D'], ['C', 'h', 'a', 'n', 'n', 'e', 'l', 'T', 'y', 'p', 'e'], ['T', 'a', 'r', 'g', 'e', 't', 'T', 'y', 'p', 'e'], ['S', 't', 'a', 't', 'u', 's'], ['S', 'i', 'z', 'e'], ['P', 'a', 'r', 'a', 'm', 's']])]

theorem w180 : Checked t180 := ⟨b180, by kernel_rfl, by kernel_rfl, by kernel_rfl⟩

/-- Lines of `message_template.msg` up to the end of `TransferPacket`. -/
def c181 : List (List Char) :=
  [chars! "",
   chars! "{",
   chars! "\tTransferPacket High 17 NotTrusted Unencoded",
   chars! "\t{",
   chars! "\t\tTransferData Single",
   chars! "\t\t{\tTransferID\tLLUUID\t}",
   chars! "\t\t{\tChannelType\tS32\t}",
   chars! "\t\t{\tPacket\t\tS32\t}",
   chars! "\t\t{\tStatus\t\tS32\t}",
   chars! "\t\t{\tData\t\tVariable 2\t}",
   chars! "\t}",
   chars! "}"]

/-- `TransferPacket` as the parser creates it. -/
def r181 : RawTemplate :=
  ⟨"TransferPacket", .high, 17, [17], some .notTrusted, some .unencoded, some .notDeprecated,
    [⟨"TransferData", .single, 0, [⟨"Data", some .variable, some 2⟩, ⟨"Status", some .s32, some 4⟩, ⟨"Packet", some .s32, some 4⟩, ⟨"ChannelType", some .s32, some 4⟩, ⟨"TransferID", some .uuid, some 16⟩]⟩]⟩

/-- `TransferPacket` in file order. -/
def t181 : Template :=
  ⟨"TransferPacket", .high, 17, [], some .notTrusted, some .unencoded, some .notDeprecated,
    [⟨"TransferData", .single, 0, [⟨"TransferID", .uuid, 16⟩, ⟨"ChannelType", .s32, 4⟩, ⟨"Packet", .s32, 4⟩, ⟨"Status", .s32, 4⟩, ⟨"Data", .variable, 2⟩]⟩]⟩

theorem p181 : ChunkOk c181 r181 := by intro v older; kernel_rfl
theorem k181 : r181.known = some t181 := by kernel_rfl
theorem n181 : t181.name = String.ofList ['T', 'r', 'a', 'n', 's', 'f', 'e', 'r', 'P', 'a', 'c', 'k', 'e', 't'] := by kernel_rfl

/-- The names of the blocks and variables of `TransferPacket`. -/
def b181 : List (List Char × List (List Char)) :=
  [(['T', 'r', 'a', 'n', 's', 'f', 'e', 'r', 'D', 'a', 't', 'a'], [['T', 'r', 'a', 'n', 's', 'f', 'e', 'r', 'I', 'D'], ['C', 'h', 'a', 'n', 'n', 'e', 'l', 'T', 'y', 'p', 'e'], ['P', 'a', 'c', 'k', 'e', 't'], ['S', 't', 'a', 't', 'u', 's'], ['D', 'a', 't', 'a']])]

theorem w181 : Checked t181 := ⟨b181, by kernel_rfl, by kernel_rfl, by kernel_rfl⟩

/-- Lines of `message_template.msg` up to the end of `TransferAbort`. -/
def c182 : List (List Char) :=
  [chars! "",
   chars! "// Abort a transfer in progress (either from target->source or source->target)",
   chars! "{",
   chars! "\tTransferAbort Low 155 NotTrusted Zerocoded",
   chars! "\t{",
   chars! "\t\tTransferInfo\t\tSingle",
   chars! "\t\t{\tTransferID\t\tLLUUID\t}",
   chars! "\t\t{\tChannelType\t\tS32\t}",
   chars! "\t}",
   chars! "}"]

/-- `TransferAbort` as the parser creates it. -/
def r182 : RawTemplate :=
  ⟨"TransferAbort", .low, 155, [255, 255, 155], some .notTrusted, some .zerocoded, some .notDeprecated,
    [⟨"TransferInfo", .single, 0, [⟨"ChannelType", some .s32, some 4⟩, ⟨"TransferID", some .uuid, some 16⟩]⟩]⟩

/-- `TransferAbort` in file order. -/
def t182 : Template :=
  ⟨"TransferAbort", .low, 155, [], some .notTrusted, some .zerocoded, some .notDeprecated,
    [⟨"TransferInfo", .single, 0, [⟨"TransferID", .uuid, 16⟩, ⟨"ChannelType", .s32, 4⟩]⟩]⟩

theorem p182 : ChunkOk c182 r182 := by intro v older; kernel_rfl
theorem k182 : r182.known = some t182 := by kernel_rfl
theorem n182 : t182.name = String.ofList ['T', 'r', 'a', 'n', 's', 'f', 'e', 'r', 'A', 'b', 'o', 'r', 't'] := by kernel_rfl

/-- The names of the blocks and variables of `TransferAbort`. -/
def b182 : List (List Char × List (List Char)) :=
  [(['T', 'r', 'a', 'n', 's', 'f', 'e', 'r', 'I', 'n', 'f', 'o'], [['T', 'r', 'a', 'n', 's', 'f', 'e', 'r', 'I', 'D'], ['C', 'h', 'a', 'n', 'n', 'e', 'l', 'T', 'y', 'p', 'e']])]

theorem w182 : Checked t182 := ⟨b182, by kernel_rfl, by kernel_rfl, by kernel_rfl⟩

/-- Lines of `message_template.msg` up to the end of `RequestXfer`. -/
def c183 : List (List Char) :=
  [chars! "",
   chars! "",
   chars! "//-----------------------------------------------------------------------------",
   chars! "// General file transfer",
   chars! "//-----------------------------------------------------------------------------",
   chars! "",
   chars! "// RequestXfer - request an arbitrary xfer",
   chars! "{",
   chars! "\tRequestXfer Low 156 NotTrusted Zerocoded",
   chars! "\t{",
   chars! "\t\tXferID\t\t\t\tSingle",
   chars! "\t\t{\tID\t\t\t\tU64\t}",
   chars! "\t\t{\tFilename\t\tVariable\t1\t}",
   chars! "\t\t{\tFilePath\t\tU8\t} // ELLPath",
   chars! "\t\t{\tDeleteOnCompletion BOOL\t} // BOOL",
   chars! "\t\t{\tUseBigPackets\tBOOL\t} // BOOL",
   chars! "\t\t{\tVFileID\t\t\tLLUUID\t}",
   chars! "\t\t{\tVFileType\t\tS16\t}",
   chars! "\t}",
   chars! "}"]

/-- `RequestXfer` as the parser creates it. -/
def r183 : RawTemplate :=
  ⟨"RequestXfer", .low, 156, [255, 255, 156], some .notTrusted, some .zerocoded, some .notDeprecated,
    [⟨"XferID", .single, 0, [⟨"VFileType", some .s16, some 2⟩, ⟨"VFileID", some .uuid, some 16⟩, ⟨"UseBigPackets", some .bool, some 1⟩, ⟨"DeleteOnCompletion", some .bool, some 1⟩, ⟨"FilePath", some .u8, some 1⟩, ⟨"Filename", some .variable, some 1⟩, ⟨"ID", some .u64, some 8⟩]⟩]⟩

/-- `RequestXfer` in file order. -/
def t183 : Template :=
  ⟨"RequestXfer", .low, 156, [], some .notTrusted, some .zerocoded, some .notDeprecated,
    [⟨"XferID", .single, 0, [⟨"ID", .u64, 8⟩, ⟨"Filename", .variable, 1⟩, ⟨"FilePath", .u8, 1⟩, ⟨"DeleteOnCompletion", .bool, 1⟩, ⟨"UseBigPackets", .bool, 1⟩, ⟨"VFileID", .uuid, 16⟩, ⟨"VFileType", .s16, 2⟩]⟩]⟩

theorem p183 : ChunkOk c183 r183 := by intro v older; kernel_rfl
theorem k183 : r183.known = some t183 := by kernel_rfl
theorem n183 : t183.name = String.ofList ['R', 'e', 'q', 'u', 'e', 's', 't', 'X', 'f', 'e', 'r'] := by kernel_rfl

/-- The names of the blocks and variables of `RequestXfer`. -/
def b183 : List (List Char × List (List Char)) :=
  [(['X', 'f', 'e', 'r', 'I', 'D'], [['I', 'D'], ['F', 'i', 'l', 'e', 'n', 'a', 'm', 'e'], ['F', 'i', 'l', 'e', 'P', 'a', 't', 'h'], ['D', 'e', 'l', 'e', 't', 'e', 'O', 'n', 'C', 'o', 'm', 'p', 'l', 'e', 't', 'i', 'o', 'n'], ['U', 's', 'e', 'B', 'i', 'g', 'P', 'a', 'c', 'k', 'e', 't', 's'], ['V', 'F', 'i', 'l', 'e', 'I', 'D'], ['V', 'F', 'i', 'l', 'e', 'T', 'y', 'p', 'e']])]

theorem w183 : Checked t183 := ⟨b183, by kernel_rfl, by kernel_rfl, by kernel_rfl⟩

/-- Lines of `message_template.msg` up to the end of `SendXferPacket`. -/
def c184 : List (List Char) :=
  [chars! "",
   chars! "// SendXferPacket - send an additional packet of an arbitrary xfer from sim -> viewer ",
   chars! "{",
   chars! "\tSendXferPacket High 18 NotTrusted Unencoded",
   chars! "\t{",
   chars! "\t\tXferID\t\t\t\tSingle",
   chars! "\t\t{\tID\t\t\t\tU64\t}",
   chars! "\t\t{\tPacket\t\t\tU32\t}",
   chars! "\t}",
   chars! "\t{",
   chars! "\t\tDataPacket\t\t\tSingle",
   chars! "\t\t{\tData\t\t\tVariable\t2\t}",
   chars! "\t}",
   chars! "}"]

/-- `SendXferPacket` as the parser creates it. -/
def r184 : RawTemplate :=
  ⟨"SendXferPacket", .high, 18, [18], some .notTrusted, some .unencoded, some .notDeprecated,
    [⟨"DataPacket", .single, 0, [⟨"Data", some .variable, some 2⟩]⟩,
     ⟨"XferID", .single, 0, [⟨"Packet", some .u32, some 4⟩, ⟨"ID", some .u64, some 8⟩]⟩]⟩

/-- `SendXferPacket` in file order. -/
def t184 : Template :=
  ⟨"SendXferPacket", .high, 18, [], some .notTrusted, some .unencoded, some .notDeprecated,
    [⟨"XferID", .single, 0, [⟨"ID", .u64, 8⟩, ⟨"Packet", .u32, 4⟩]⟩,
     ⟨"DataPacket", .single, 0, [⟨"Data", .variable, 2⟩]⟩]⟩

theorem p184 : ChunkOk c184 r184 := by intro v older; kernel_rfl
theorem k184 : r184.known = some t184 := by kernel_rfl
theorem n184 : t184.name = String.ofList ['S', 'e', 'n', 'd', 'X', 'f', 'e', 'r', 'P', 'a', 'c', 'k', 'e', 't'] := by kernel_rfl

/-- The names of the blocks and variables of `SendXferPacket`. -/
def b184 : List (List Char × List (List Char)) :=
  [(['X', 'f', 'e', 'r', 'I', 'D'], [['I', 'D'], ['P', 'a', 'c', 'k', 'e', 't']]),
   (['D', 'a', 't', 'a', 'P', 'a', 'c', 'k', 'e', 't'], [['D', 'a', 't', 'a']])]

theorem w184 : Checked t184 := ⟨b184, by kernel_rfl, by kernel_rfl, by kernel_rfl⟩

/-- Lines of `message_template.msg` up to the end of `ConfirmXferPacket`. -/
def c185 : List (List Char) :=
  [chars! "",
   chars! "// ConfirmXferPacket",
   chars! "{",
   chars! "\tConfirmXferPacket High 19 NotTrusted Unencoded",
   chars! "\t{",
   chars! "\t\tXferID\t\t\t\tSingle",
   chars! "\t\t{\tID\t\t\t\tU64\t}",
   chars! "\t\t{\tPacket\t\t\tU32\t}",
   chars! "\t}",
   chars! "}"]

/-- `ConfirmXferPacket` as the parser creates it. -/
def r185 : RawTemplate :=
  ⟨"ConfirmXferPacket", .high, 19, [19], some .notTrusted, some .unencoded, some .notDeprecated,
    [⟨"XferID", .single, 0, [⟨"Packet", some .u32, some 4⟩, ⟨"ID", some .u64, some 8⟩]⟩]⟩

/-- `ConfirmXferPacket` in file order. -/
def t185 : Template :=
  ⟨"ConfirmXferPacket", .high, 19, [], some .notTrusted, some .unencoded, some .notDeprecated,
    [⟨"XferID", .single, 0, [⟨"ID", .u64, 8⟩, ⟨"Packet", .u32, 4⟩]⟩]⟩

theorem p185 : ChunkOk c185 r185 := by intro v older; kernel_rfl
theorem k185 : r185.known = some t185 := by kernel_rfl
theorem n185 : t185.name = String.ofList ['C', 'o', 'n', 'f', 'i', 'r', 'm', 'X', 'f', 'e', 'r', 'P', 'a', 'c', 'k', 'e', 't'] := by kernel_rfl

/-- The names of the blocks and variables of `ConfirmXferPacket`. -/
def b185 : List (List Char × List (List Char)) :=
  [(['X', 'f', 'e', 'r', 'I', 'D'], [['I', 'D'], ['P', 'a', 'c', 'k', 'e', 't']])]

theorem w185 : Checked t185 := ⟨b185, by kernel_rfl, by kernel_rfl, by kernel_rfl⟩

/-- Lines of `message_template.msg` up to the end of `AbortXfer`. -/
def c186 : List (List Char) :=
  [chars! "",
   chars! "// AbortXfer",
   chars! "{",
   chars! "\tAbortXfer Low 157 NotTrusted Unencoded",
   chars! "\t{",
   chars! "\t\tXferID\t\t\t\tSingle",
   chars! "\t\t{\tID\t\t\t\tU64\t}",
   chars! "\t\t{\tResult\t\t\tS32\t}",
   chars! "\t}",
   chars! "}"]

/-- `AbortXfer` as the parser creates it. -/
def r186 : RawTemplate :=
  ⟨"AbortXfer", .low, 157, [255, 255, 157], some .notTrusted, some .unencoded, some .notDeprecated,
    [⟨"XferID", .single, 0, [⟨"Result", some .s32, some 4⟩, ⟨"ID", some .u64, some 8⟩]⟩]⟩

/-- `AbortXfer` in file order. -/
def t186 : Template :=
  ⟨"AbortXfer", .low, 157, [], some .notTrusted, some .unencoded, some .notDeprecated,
    [⟨"XferID", .single, 0, [⟨"ID", .u64, 8⟩, ⟨"Result", .s32, 4⟩]⟩]⟩

theorem p186 : ChunkOk c186 r186 := by intro v older; kernel_rfl
theorem k186 : r186.known = some t186 := by kernel_rfl
theorem n186 : t186.name = String.ofList ['A', 'b', 'o', 'r', 't', 'X', 'f', 'e', 'r'] := by kernel_rfl

/-- The names of the blocks and variables of `AbortXfer`. -/
def b186 : List (List Char × List (List Char)) :=
  [(['X', 'f', 'e', 'r', 'I', 'D'], [['I', 'D'], ['R', 'e', 's', 'u', 'l', 't']])]

theorem w186 : Checked t186 := ⟨b186, by kernel_rfl, by kernel_rfl, by kernel_rfl⟩

/-- Lines of `message_template.msg` up to the end of `AvatarAnimation`. -/
def c187 : List (List Char) :=
  [chars! "",
   chars! "//-----------------------------------------------------------------------------",
   chars! "// Avatar information",
   chars! "//-----------------------------------------------------------------------------",
   chars! "",
   chars! "",
   chars! "// AvatarAnimation - Update animation state",
   chars! "// simulator --> viewer ",
   chars! "{",
   chars! "\tAvatarAnimation High 20 Trusted Unencoded",
   chars! "\t{",
   chars! "\t\tSender\t\t\tSingle",
   chars! "\t\t{\tID\t\t\tLLUUID\t}",
   chars! "\t}",
   chars! "\t{",
   chars! "\t\tAnimationList Variable",
   chars! "\t\t{ AnimID\t\tLLUUID }",
   chars! "\t\t{ AnimSequenceID S32 }",
   chars! "\t}",
   chars! "\t{",
   chars! "\t\tAnimationSourceList Variable",
   chars! "\t\t{ ObjectID\t\tLLUUID }",
   chars! "\t}",
   chars! "\t{",
   chars! "\t\tPhysicalAvatarEventList Variable",
   chars! "\t\t{ TypeData\t\tVariable\t1 }",
   chars! "\t}",
   chars! "",
   chars! "}"]

/-- `AvatarAnimation` as the parser creates it. -/
def r187 : RawTemplate :=
  ⟨"AvatarAnimation", .high, 20, [20], some .trusted, some .unencoded, some .notDeprecated,
    [⟨"PhysicalAvatarEventList", .variable, 0, [⟨"TypeData", some .variable, some 1⟩]⟩,
     ⟨"AnimationSourceList", .variable, 0, [⟨"ObjectID", some .uuid, some 16⟩]⟩,
     ⟨"AnimationList", .variable, 0, [⟨"AnimSequenceID", some .s32, some 4⟩, ⟨"AnimID", some .uuid, some 16⟩]⟩,
     ⟨"Sender", .single, 0, [⟨"ID", some .uuid, some 16⟩]⟩]⟩

/-- `AvatarAnimation` in file order. -/
def t187 : Template :=
  ⟨"AvatarAnimation", .high, 20, [], some .trusted, some .unencoded, some .notDeprecated,
    [⟨"Sender", .single, 0, [⟨"ID", .uuid, 16⟩]⟩,
     ⟨"AnimationList", .variable, 0, [⟨"AnimID", .uuid, 16⟩, ⟨"AnimSequenceID", .s32, 4⟩]⟩,
     ⟨"AnimationSourceList", .variable, 0, [⟨"ObjectID", .uuid, 16⟩]⟩,
     ⟨"PhysicalAvatarEventList", .variable, 0, [⟨"TypeData", .variable, 1⟩]⟩]⟩

theorem p187 : ChunkOk c187 r187 := by intro v older; kernel_rfl
theorem k187 : r187.known = some t187 := by kernel_rfl
theorem n187 : t187.name = String.ofList ['A', 'v', 'a', 't', 'a', 'r', 'A', 'n', 'i', 'm', 'a', 't', 'i', 'o', 'n'] := by kernel_rfl

/-- The names of the blocks and variables of `AvatarAnimation`. -/
def b187 : List (List Char × List (List Char)) :=
  [(['S', 'e', 'n', 'd', 'e', 'r'], [['I', 'D']]),
   (['A', 'n', 'i', 'm', 'a', 't', 'i', 'o', 'n', 'L', 'i', 's', 't'], [['A', 'n', 'i', 'm', 'I', 'D'], ['A', 'n', 'i', 'm', 'S', 'e', 'q', 'u', 'e', 'n', 'c', 'e', 'I', 'D']]),
   (['A', 'n', 'i', 'm', 'a', 't', 'i', 'o', 'n', 'S', 'o', 'u', 'r', 'c', 'e', 'L', 'i', 's', 't'], [['O', 'b', 'j', 'e', 'c', 't', 'I', 'D']]),
   (['P', 'h', 'y', 's', 'i', 'c', 'a', 'l', 'A', 'v', 'a', 't', 'a', 'r', 'E', 'v', 'e', 'n', 't', 'L', 'i', 's', 't'], [['T', 'y', 'p', 'e', 'D', 'a', 't', 'a']])]

theorem w187 : Checked t187 := ⟨b187, by kernel_rfl, by kernel_rfl, by kernel_rfl⟩

/-- Lines of `message_template.msg` up to the end of `AvatarAppearance`. -/
def c188 : List (List Char) :=
  [chars! "",
   chars! "// AvatarAppearance - Update visual params",
   chars! "{",
   chars! "\tAvatarAppearance Low 158 Trusted Zerocoded",
   chars! "\t{",
   chars! "\t\tSender\t\t\t\tSingle",
   chars! "\t\t{\tID\t\t\t\tLLUUID\t}",
   chars! "\t\t{\tIsTrial\t\t\tBOOL    }",
   chars! "\t}",
   chars! "\t{\t",
   chars! "\t\tObjectData\t\t\tSingle",
   chars! "\t\t{\tTextureEntry\tVariable\t2\t}",
   chars! "\t}",
   chars! "\t{",
   chars! "\t\tVisualParam\t\t\tVariable",
   chars! "\t\t{\tParamValue\t\tU8\t}",
   chars! "\t}",
   chars! "}"]

/-- `AvatarAppearance` as the parser creates it. -/
def r188 : RawTemplate :=
  ⟨"AvatarAppearance", .low, 158, [255, 255, 158], some .trusted, some .zerocoded, some .notDeprecated,
    [⟨"VisualParam", .variable, 0, [⟨"ParamValue", some .u8, some 1⟩]⟩,
     ⟨"ObjectData", .single, 0, [⟨"TextureEntry", some .variable, some 2⟩]⟩,
     ⟨"Sender", .single, 0, [⟨"IsTrial", some .bool, some 1⟩, ⟨"ID", some .uuid, some 16⟩]⟩]⟩

/-- `AvatarAppearance` in file order. -/
def t188 : Template :=
  ⟨"AvatarAppearance", .low, 158, [], some .trusted, some .zerocoded, some .notDeprecated,
    [⟨"Sender", .single, 0, [⟨"ID", .uuid, 16⟩, ⟨"IsTrial", .bool, 1⟩]⟩,
     ⟨"ObjectData", .single, 0, [⟨"TextureEntry", .variable, 2⟩]⟩,
     ⟨"VisualParam", .variable, 0, [⟨"ParamValue", .u8, 1⟩]⟩]⟩

theorem p188 : ChunkOk c188 r188 := by intro v older; kernel_rfl
theorem k188 : r188.known = some t188 := by kernel_rfl
theorem n188 : t188.name = String.ofList ['A', 'v', 'a', 't', 'a', 'r', 'A', 'p', 'p', 'e', 'a', 'r', 'a', 'n', 'c', 'e'] := by kernel_rfl

/-- The names of the blocks and variables of `AvatarAppearance`. -/
def b188 : List (List Char × List (List Char)) :=
  [(['S', 'e', 'n', 'd', 'e', 'r'], [['I', 'D'], ['I', 's', 'T', 'r', 'i', 'a', 'l']]),
   (['O', 'b', 'j', 'e', 'c', 't', 'D', 'a', 't', 'a'], [['T', 'e', 'x', 't', 'u', 'r', 'e', 'E', 'n', 't', 'r', 'y']]),
   (['V', 'i', 's', 'u', 'a', 'l', 'P', 'a', 'r', 'a', 'm'], [['P', 'a', 'r', 'a', 'm', 'V', 'a', 'l', 'u', 'e']])]

theorem w188 : Checked t188 := ⟨b188, by kernel_rfl, by kernel_rfl, by kernel_rfl⟩

/-- Lines of `message_template.msg` up to the end of `AvatarSitResponse`. -/
def c189 : List (List Char) :=
  [chars! "",
   chars! "// AvatarSitResponse - response to a request to sit on an object",
   chars! "{",
   chars! "\tAvatarSitResponse\tHigh 21 Trusted Zerocoded",
   chars! "\t{",
   chars! "\t\tSitObject\t\t\tSingle",
   chars! "\t\t{\tID\t\t\t\tLLUUID\t}",
   chars! "\t}",
   chars! "\t{",
   chars! "\t\tSitTransform\t\tSingle",
   chars! "\t\t{\tAutoPilot\t\tBOOL }",
   chars! "\t\t{\tSitPosition\t\tLLVector3\t}",
   chars! "\t\t{\tSitRotation\t\tLLQuaternion\t}",
   chars! "\t\t{\tCameraEyeOffset\tLLVector3\t}",
   chars! "\t\t{\tCameraAtOffset\tLLVector3\t}",
   chars! "\t\t{\tForceMouselook\tBOOL }",
   chars! "\t}",
   chars! "}"]

/-- `AvatarSitResponse` as the parser creates it. -/
def r189 : RawTemplate :=
  ⟨"AvatarSitResponse", .high, 21, [21], some .trusted, some .zerocoded, some .notDeprecated,
    [⟨"SitTransform", .single, 0, [⟨"ForceMouselook", some .bool, some 1⟩, ⟨"CameraAtOffset", some .vector3, some 12⟩, ⟨"CameraEyeOffset", some .vector3, some 12⟩, ⟨"SitRotation", some .quaternion, some 12⟩, ⟨"SitPosition", some .vector3, some 12⟩, ⟨"AutoPilot", some .bool, some 1⟩]⟩,
     ⟨"SitObject", .single, 0, [⟨"ID", some .uuid, some 16⟩]⟩]⟩

/-- `AvatarSitResponse` in file order. -/
def t189 : Template :=
  ⟨"AvatarSitResponse", .high, 21, [], some .trusted, some .zerocoded, some .notDeprecated,
    [⟨"SitObject", .single, 0, [⟨"ID", .uuid, 16⟩]⟩,
     ⟨"SitTransform", .single, 0, [⟨"AutoPilot", .bool, 1⟩, ⟨"SitPosition", .vector3, 12⟩, ⟨"SitRotation", .quaternion, 12⟩, ⟨"CameraEyeOffset", .vector3, 12⟩, ⟨"CameraAtOffset", .vector3, 12⟩, ⟨"ForceMouselook", .bool, 1⟩]⟩]⟩

theorem p189 : ChunkOk c189 r189 := by intro v older; kernel_rfl
theorem k189 : r189.known = some t189 := by kernel_rfl
theorem n189 : t189.name = String.ofList ['A', 'v', 'a', 't', 'a', 'r', 'S', 'i', 't', 'R', 'e', 's', 'p', 'o', 'n', 's', 'e'] := by kernel_rfl

/-- The names of the blocks and variables of `AvatarSitResponse`. -/
def b189 : List (List Char × List (List Char)) :=
  [(['S', 'i', 't', 'O', 'b', 'j', 'e', 'c', 't'], [['I', 'D']]),
   (['S', 'i', 't', 'T', 'r', 'a', 'n', 's', 'f', 'o', 'r', 'm'], [['A', 'u', 't', 'o', 'P', 'i', 'l', 'o', 't'], ['S', 'i', 't', 'P', 'o', 's', 'i', 't', 'i', 'o', 'n'], ['S', 'i', 't', 'R', 'o', 't', 'a', 't', 'i', 'o', 'n'], ['C', 'a', 'm', 'e', 'r', 'a', 'E', 'y', 'e', 'O', 'f', 'f', 's', 'e', 't'], ['C', 'a', 'm', 'e', 'r', 'a', 'A', 't', 'O', 'f', 'f', 's', 'e', 't'], ['F', 'o', 'r', 'c', 'e', 'M', 'o', 'u', 's', 'e', 'l', 'o', 'o', 'k']])]

theorem w189 : Checked t189 := ⟨b189, by kernel_rfl, by kernel_rfl, by kernel_rfl⟩

/-- Lines of `message_template.msg` up to the end of `SetFollowCamProperties`. -/
def c190 : List (List Char) :=
  [chars! "",
   chars! "// SetFollowCamProperties",
   chars! "{ ",
   chars! "\tSetFollowCamProperties\t\tLow\t159 Trusted\tUnencoded",
   chars! "\t{",
   chars! "\t\tObjectData\t\t\tSingle",
   chars! "\t\t{\tObjectID\t\t\t\tLLUUID\t}",
   chars! "\t}",
   chars! "\t{",
   chars! "\t\tCameraProperty\tVariable",
   chars! "\t\t{ \tType \tS32 }",
   chars! "\t\t{ \tValue \tF32 }",
   chars! "\t}",
   chars! "}"]

/-- `SetFollowCamProperties` as the parser creates it. -/
def r190 : RawTemplate :=
  ⟨"SetFollowCamProperties", .low, 159, [255, 255, 159], some .trusted, some .unencoded, some .notDeprecated,
    [⟨"CameraProperty", .variable, 0, [⟨"Value", some .f32, some 4⟩, ⟨"Type", some .s32, some 4⟩]⟩,
     ⟨"ObjectData", .single, 0, [⟨"ObjectID", some .uuid, some 16⟩]⟩]⟩

/-- `SetFollowCamProperties` in file order. -/
def t190 : Template :=
  ⟨"SetFollowCamProperties", .low, 159, [], some .trusted, some .unencoded, some .notDeprecated,
    [⟨"ObjectData", .single, 0, [⟨"ObjectID", .uuid, 16⟩]⟩,
     ⟨"CameraProperty", .variable, 0, [⟨"Type", .s32, 4⟩, ⟨"Value", .f32, 4⟩]⟩]⟩

theorem p190 : ChunkOk c190 r190 := by intro v older; kernel_rfl
theorem k190 : r190.known = some t190 := by kernel_rfl
theorem n190 : t190.name = String.ofList ['S', 'e', 't', 'F', 'o', 'l', 'l', 'o', 'w', 'C', 'a', 'm', 'P', 'r', 'o', 'p', 'e', 'r', 't', 'i', 'e', 's'] := by kernel_rfl

/-- The names of the blocks and variables of `SetFollowCamProperties`. -/
def b190 : List (List Char × List (List Char)) :=
  [(['O', 'b', 'j', 'e', 'c', 't', 'D', 'a', 't', 'a'], [['O', 'b', 'j', 'e', 'c', 't', 'I', 'D']]),
   (['C', 'a', 'm', 'e', 'r', 'a', 'P', 'r', 'o', 'p', 'e', 'r', 't', 'y'], [['T', 'y', 'p', 'e'], ['V', 'a', 'l', 'u', 'e']])]

theorem w190 : Checked t190 := ⟨b190, by kernel_rfl, by kernel_rfl, by kernel_rfl⟩

/-- Lines of `message_template.msg` up to the end of `ClearFollowCamProperties`. -/
def c191 : List (List Char) :=
  [chars! "",
   chars! "// ClearFollowCamProperties",
   chars! "{",
   chars! "\tClearFollowCamProperties\tLow 160 Trusted Unencoded",
   chars! "\t{",
   chars! "\t\tObjectData\t\t\tSingle",
   chars! "\t\t{\tObjectID\t\t\t\tLLUUID\t}",
   chars! "\t}",
   chars! "}"]

/-- `ClearFollowCamProperties` as the parser creates it. -/
def r191 : RawTemplate :=
  ⟨"ClearFollowCamProperties", .low, 160, [255, 255, 160], some .trusted, some .unencoded, some .notDeprecated,
    [⟨"ObjectData", .single, 0, [⟨"ObjectID", some .uuid, some 16⟩]⟩]⟩

/-- `ClearFollowCamProperties` in file order. -/
def t191 : Template :=
  ⟨"ClearFollowCamProperties", .low, 160, [], some .trusted, some .unencoded, some .notDeprecated,
    [⟨"ObjectData", .single, 0, [⟨"ObjectID", .uuid, 16⟩]⟩]⟩

theorem p191 : ChunkOk c191 r191 := by intro v older; kernel_rfl
theorem k191 : r191.known = some t191 := by kernel_rfl
theorem n191 : t191.name = String.ofList ['C', 'l', 'e', 'a', 'r', 'F', 'o', 'l', 'l', 'o', 'w', 'C', 'a', 'm', 'P', 'r', 'o', 'p', 'e', 'r', 't', 'i', 'e', 's'] := by kernel_rfl

/-- The names of the blocks and variables of `ClearFollowCamProperties`. -/
def b191 : List (List Char × List (List Char)) :=
  [(['O', 'b', 'j', 'e', 'c', 't', 'D', 'a', 't', 'a'], [['O', 'b', 'j', 'e', 'c', 't', 'I', 'D']])]

theorem w191 : Checked t191 := ⟨b191, by kernel_rfl, by kernel_rfl, by kernel_rfl⟩

/-- Lines of `message_template.msg` up to the end of `CameraConstraint`. -/
def c192 : List (List Char) :=
  [chars! "",
   chars! "// CameraConstraint - new camera distance limit (based on collision with objects)",
   chars! "{",
   chars! "\tCameraConstraint High 22 Trusted Zerocoded",
   chars! "\t{",
   chars! "\t\tCameraCollidePlane\tSingle",
   chars! "\t\t{\tPlane\t\tLLVector4 }",
   chars! "\t}",
   chars! "}"]

/-- `CameraConstraint` as the parser creates it. -/
def r192 : RawTemplate :=
  ⟨"CameraConstraint", .high, 22, [22], some .trusted, some .zerocoded, some .notDeprecated,
    [⟨"CameraCollidePlane", .single, 0, [⟨"Plane", some .vector4, some 16⟩]⟩]⟩

/-- `CameraConstraint` in file order. -/
def t192 : Template :=
  ⟨"CameraConstraint", .high, 22, [], some .trusted, some .zerocoded, some .notDeprecated,
    [⟨"CameraCollidePlane", .single, 0, [⟨"Plane", .vector4, 16⟩]⟩]⟩

theorem p192 : ChunkOk c192 r192 := by intro v older; kernel_rfl
theorem k192 : r192.known = some t192 := by kernel_rfl
theorem n192 : t192.name = String.ofList ['C', 'a', 'm', 'e', 'r', 'a', 'C', 'o', 'n', 's', 't', 'r', 'a', 'i', 'n', 't'] := by kernel_rfl

/-- The names of the blocks and variables of `CameraConstraint`. -/
def b192 : List (List Char × List (List Char)) :=
  [(['C', 'a', 'm', 'e', 'r', 'a', 'C', 'o', 'l', 'l', 'i', 'd', 'e', 'P', 'l', 'a', 'n', 'e'], [['P', 'l', 'a', 'n', 'e']])]

theorem w192 : Checked t192 := ⟨b192, by kernel_rfl, by kernel_rfl, by kernel_rfl⟩

/-- Lines of `message_template.msg` up to the end of `ObjectProperties`. -/
def c193 : List (List Char) :=
  [chars! "",
   chars! "// ObjectProperties",
   chars! "// Extended information such as creator, permissions, etc.",
   chars! "// Medium because potentially driven by mouse hover events.",
   chars! "{",
   chars! "\tObjectProperties Medium 9 Trusted Zerocoded",
   chars! "\t{",
   chars! "\t\tObjectData\t\t\tVariable",
   chars! "\t\t{\tObjectID\t\tLLUUID\t}",
   chars! "\t\t{\tCreatorID\t\tLLUUID\t}",
   chars! "\t\t{\tOwnerID\t\t\tLLUUID\t}",
   chars! "\t\t{\tGroupID\t\t\tLLUUID\t}",
   chars! "\t\t{\tCreationDate\tU64\t}",
   chars! "\t\t{\tBaseMask\t\tU32\t}",
   chars! "\t\t{\tOwnerMask\t\tU32\t}",
   chars! "\t\t{\tGroupMask\t\tU32\t}",
   chars! "\t\t{\tEveryoneMask\tU32\t}",
   chars! "\t\t{\tNextOwnerMask\tU32\t}",
   chars! "\t\t{\tOwnershipCost\tS32\t}",
   chars! "//\t\t{\tTaxRate\t\t\tF32\t}\t// F32",
   chars! "\t\t{\tSaleType\t\tU8\t}   // U8 -> EForSale",
   chars! "\t\t{\tSalePrice\t\tS32\t}",
   chars! "\t\t{\tAggregatePerms\tU8\t}",
   chars! "\t\t{\tAggregatePermTextures\t\tU8\t}",
   chars! "\t\t{\tAggregatePermTexturesOwner\tU8\t}",
   chars! "\t\t{\tCategory\t\tU32\t}\t// LLCategory",
   chars! "\t\t{\tInventorySerial\tS16\t}\t// S16",
   chars! "\t\t{\tItemID\t\t\tLLUUID\t}",
   chars! "\t\t{\tFolderID\t\tLLUUID\t}",
   chars! "\t\t{\tFromTaskID\t\tLLUUID\t}",
   chars! "\t\t{\tLastOwnerID\t\tLLUUID\t}",
   chars! "\t\t{\tName\t\t\tVariable\t1\t}",
   chars! "\t\t{\tDescription\t\tVariable\t1\t}",
   chars! "\t\t{\tTouchName\t\tVariable\t1\t}",
   chars! "\t\t{\tSitName\t\t\tVariable\t1\t}",
   chars! "\t\t{\tTextureID\t\tVariable\t1\t}",
   chars! "\t}",
   chars! "}"]

/-- `ObjectProperties` as the parser creates it. -/
def r193 : RawTemplate :=
  ⟨"ObjectProperties", .medium, 9, [255, 9], some .trusted, some .zerocoded, some .notDeprecated,
    [⟨"ObjectData", .variable, 0, [⟨"TextureID", some .variable, some 1⟩, ⟨"SitName", some .variable, some 1⟩, ⟨"TouchName", some .variable, some 1⟩, ⟨"Description", some .variable, some 1⟩, ⟨"Name", some .variable, some 1⟩, ⟨"LastOwnerID", some .uuid, some 16⟩, ⟨"FromTaskID", some .uuid, some 16⟩, ⟨"FolderID", some .uuid, some 16⟩, ⟨"ItemID", some .uuid, some 16⟩, ⟨"InventorySerial", some .s16, some 2⟩, ⟨"Category", some .u32, some 4⟩, ⟨"AggregatePermTexturesOwner", some .u8, some 1⟩, ⟨"AggregatePermTextures", some .u8, some 1⟩, ⟨"AggregatePerms", some .u8, some 1⟩, ⟨"SalePrice", some .s32, some 4⟩, ⟨"SaleType", some .u8, some 1⟩, ⟨"OwnershipCost", some .s32, some 4⟩, ⟨"NextOwnerMask", some .u32, some 4⟩, ⟨"EveryoneMask", some .u32, some 4⟩, ⟨"GroupMask", some .u32, some 4⟩, ⟨"OwnerMask", some .u32, some 4⟩, ⟨"BaseMask", some .u32, some 4⟩, ⟨"CreationDate", some .u64, some 8⟩, ⟨"GroupID", some .uuid, some 16⟩, ⟨"OwnerID", some .uuid, some 16⟩, ⟨"CreatorID", some .uuid, some 16⟩, ⟨"ObjectID", some .uuid, some 16⟩]⟩]⟩

/-- `ObjectProperties` in file order. -/
def t193 : Template :=
  ⟨"ObjectProperties", .medium, 9, [], some .trusted, some .zerocoded, some .notDeprecated,
    [⟨"ObjectData", .variable, 0, [⟨"ObjectID", .uuid, 16⟩, ⟨"CreatorID", .uuid, 16⟩, ⟨"OwnerID", .uuid, 16⟩, ⟨"GroupID", .uuid, 16⟩, ⟨"CreationDate", .u64, 8⟩, ⟨"BaseMask", .u32, 4⟩, ⟨"OwnerMask", .u32, 4⟩, ⟨"GroupMask", .u32, 4⟩, ⟨"EveryoneMask", .u32, 4⟩, ⟨"NextOwnerMask", .u32, 4⟩, ⟨"OwnershipCost", .s32, 4⟩, ⟨"SaleType", .u8, 1⟩, ⟨"SalePrice", .s32, 4⟩, ⟨"AggregatePerms", .u8, 1⟩, ⟨"AggregatePermTextures", .u8, 1⟩, ⟨"AggregatePermTexturesOwner", .u8, 1⟩, ⟨"Category", .u32, 4⟩, ⟨"InventorySerial", .s16, 2⟩, ⟨"ItemID", .uuid, 16⟩, ⟨"FolderID", .uuid, 16⟩, ⟨"FromTaskID", .uuid, 16⟩, ⟨"LastOwnerID", .uuid, 16⟩, ⟨"Name", .variable, 1⟩, ⟨"Description", .variable, 1⟩, ⟨"TouchName", .variable, 1⟩, ⟨"SitName", .variable, 1⟩, ⟨"TextureID", .variable, 1⟩]⟩]⟩

theorem p193 : ChunkOk c193 r193 := by intro v older; kernel_rfl
theorem k193 : r193.known = some t193 := by kernel_rfl
theorem n193 : t193.name = String.ofList ['O', 'b', 'j', 'e', 'c', 't', 'P', 'r', 'o', 'p', 'e', 'r', 't', 'i', 'e', 's'] := by kernel_rfl

/-- The names of the blocks and variables of `ObjectProperties`. -/
def b193 : List (List Char × List (List Char)) :=
  [(['O', 'b', 'j', 'e', 'c', 't', 'D', 'a', 't', 'a'], [['O', 'b', 'j', 'e', 'c', 't', 'I', 'D'], ['C', 'r', 'e', 'a', 't', 'o', 'r', 'I', 'D'], ['O', 'w', 'n', 'e', 'r', 'I', 'D'], ['G', 'r', 'o', 'u', 'p', 'I', 'D'], ['C', 'r', 'e', 'a', 't', 'i', 'o', 'n', 'D', 'a', 't', 'e'], ['B', 'a', 's', 'e', 'M', 'a', 's', 'k'], ['O', 'w', 'n', 'e', 'r', 'M', 'a', 's', 'k'], ['G', 'r', 'o', 'u', 'p', 'M', 'a', 's', 'k'], ['E', 'v', 'e', 'r', 'y', 'o', 'n', 'e', 'M', 'a', 's', 'k'], ['N', 'e', 'x', 't', 'O', 'w', 'n', 'e', 'r', 'M', 'a', 's', 'k'], ['O', 'w', 'n', 'e', 'r', 's', 'h', 'i', 'p', 'C', 'o', 's', 't'], ['S', 'a', 'l', 'e', 'T', 'y', 'p', 'e'], ['S', 'a', 'l', 'e', 'P', 'r', 'i', 'c', 'e'], ['A', 'g', 'g', 'r', 'e', 'g', 'a', 't', 'e', 'P', 'e', 'r', 'm', 's'], ['A', 'g', 'g', 'r', 'e', 'g', 'a', 't', 'e', 'P', 'e', 'r', 'm', 'T', 'e', 'x', 't', 'u', 'r', 'e', 's'], ['A', 'g', 'g', 'r', 'e', 'g', 'a', 't', 'e', 'P', 'e', 'r', 'm', 'T', 'e', 'x', 't', 'u', 'r', 'e', 's', 'O', 'w', 'n', 'e', 'r'], ['C', 'a', 't', 'e', 'g', 'o', 'r', 'y'], ['I', 'n', 'v', 'e', 'n', 't', 'o', 'r', 'y', 'S', 'e', 'r', 'i', 'a', 'l'], ['I', 't', 'e', 'm', 'I', 'D'], ['F', 'o', 'l', 'd', 'e', 'r', 'I', 'D'], ['F', 'r', 'o', 'm', 'T', 'a', 's', 'k', 'I', 'D'], ['L', 'a', 's', 't', 'O', 'w', 'n', 'e', 'r', 'I', 'D'], ['N', 'a', 'm', 'e'], ['D', 'e', 's', 'c', 'r', 'i', 'p', 't', 'i', 'o', 'n'], ['T', 'o', 'u', 'c', 'h', 'N', 'a', 'm', 'e'], ['S', 'i', 't', 'N', 'a', 'm', 'e'], ['T', 'e', 'x', 't', 'u', 'r', 'e', 'I', 'D']])]

theorem w193 : Checked t193 := ⟨b193, by kernel_rfl, by kernel_rfl, by kernel_rfl⟩

/-- Lines of `message_template.msg` up to the end of `ObjectPropertiesFamily`. -/
def c194 : List (List Char) :=
  [chars! "",
   chars! "// ObjectPropertiesFamily",
   chars! "// Medium because potentially driven by mouse hover events.",
   chars! "{",
   chars! "\tObjectPropertiesFamily Medium 10 Trusted Zerocoded",
   chars! "\t{",
   chars! "\t\tObjectData\t\t\tSingle",
   chars! "\t\t{\tRequestFlags\tU32\t}",
   chars! "\t\t{\tObjectID\t\tLLUUID\t}",
   chars! "\t\t{\tOwnerID\t\t\tLLUUID\t}",
   chars! "\t\t{\tGroupID\t\t\tLLUUID\t}",
   chars! "\t\t{\tBaseMask\t\tU32\t}",
   chars! "\t\t{\tOwnerMask\t\tU32\t}",
   chars! "\t\t{\tGroupMask\t\tU32\t}",
   chars! "\t\t{\tEveryoneMask\tU32\t}",
   chars! "\t\t{\tNextOwnerMask\tU32\t}",
   chars! "\t\t{\tOwnershipCost\tS32\t}",
   chars! "\t\t{\tSaleType\t\tU8\t}   // U8 -> EForSale",
   chars! "\t\t{\tSalePrice\t\tS32\t}",
   chars! "\t\t{\tCategory\t\tU32\t}\t// LLCategory",
   chars! "\t\t{\tLastOwnerID\t\tLLUUID\t}",
   chars! "\t\t{\tName\t\t\tVariable\t1\t}",
   chars! "\t\t{\tDescription\t\tVariable\t1\t}",
   chars! "\t}",
   chars! "}"]

/-- `ObjectPropertiesFamily` as the parser creates it. -/
def r194 : RawTemplate :=
  ⟨"ObjectPropertiesFamily", .medium, 10, [255, 10], some .trusted, some .zerocoded, some .notDeprecated,
    [⟨"ObjectData", .single, 0, [⟨"Description", some .variable, some 1⟩, ⟨"Name", some .variable, some 1⟩, ⟨"LastOwnerID", some .uuid, some 16⟩, ⟨"Category", some .u32, some 4⟩, ⟨"SalePrice", some .s32, some 4⟩, ⟨"SaleType", some .u8, some 1⟩, ⟨"OwnershipCost", some .s32, some 4⟩, ⟨"NextOwnerMask", some .u32, some 4⟩, ⟨"EveryoneMask", some .u32, some 4⟩, ⟨"GroupMask", some .u32, some 4⟩, ⟨"OwnerMask", some .u32, some 4⟩, ⟨"BaseMask", some .u32, some 4⟩, ⟨"GroupID", some .uuid, some 16⟩, ⟨"OwnerID", some .uuid, some 16⟩, ⟨"ObjectID", some .uuid, some 16⟩, ⟨"RequestFlags", some .u32, some 4⟩]⟩]⟩

/-- `ObjectPropertiesFamily` in file order. -/
def t194 : Template :=
  ⟨"ObjectPropertiesFamily", .medium, 10, [], some .trusted, some .zerocoded, some .notDeprecated,
    [⟨"ObjectData", .single, 0, [⟨"RequestFlags", .u32, 4⟩, ⟨"ObjectID", .uuid, 16⟩, ⟨"OwnerID", .uuid, 16⟩, ⟨"GroupID", .uuid, 16⟩, ⟨"BaseMask", .u32, 4⟩, ⟨"OwnerMask", .u32, 4⟩, ⟨"GroupMask", .u32, 4⟩, ⟨"EveryoneMask", .u32, 4⟩, ⟨"NextOwnerMask", .u32, 4⟩, ⟨"OwnershipCost", .s32, 4⟩, ⟨"SaleType", .u8, 1⟩, ⟨"SalePrice", .s32, 4⟩, ⟨"Category", .u32, 4⟩, ⟨"LastOwnerID", .uuid, 16⟩, ⟨"Name", .variable, 1⟩, ⟨"Description", .variable, 1⟩]⟩]⟩

theorem p194 : ChunkOk c194 r194 := by intro v older; kernel_rfl
theorem k194 : r194.known = some t194 := by kernel_rfl
theorem n194 : t194.name = String.ofList ['O', 'b', 'j', 'e', 'c', 't', 'P', 'r', 'o', 'p', 'e', 'r', 't', 'i', 'e', 's', 'F', 'a', 'm', 'i', 'l', 'y'] := by kernel_rfl

/-- The names of the blocks and variables of `ObjectPropertiesFamily`. -/
def b194 : List (List Char × List (List Char)) :=
  [(['O', 'b', 'j', 'e', 'c', 't', 'D', 'a', 't', 'a'], [['R', 'e', 'q', 'u', 'e', 's', 't', 'F', 'l', 'a', 'g', 's'], ['O', 'b', 'j', 'e', 'c', 't', 'I', 'D'], ['O', 'w', 'n', 'e', 'r', 'I', 'D'], ['G', 'r', 'o', 'u', 'p', 'I', 'D'], ['B', 'a', 's', 'e', 'M', 'a', 's', 'k'], ['O', 'w', 'n', 'e', 'r', 'M', 'a', 's', 'k'], ['G', 'r', 'o', 'u', 'p', 'M', 'a', 's', 'k'], ['E', 'v', 'e', 'r', 'y', 'o', 'n', 'e', 'M', 'a', 's', 'k'], ['N', 'e', 'x', 't', 'O', 'w', 'n', 'e', 'r', 'M', 'a', 's', 'k'], ['O', 'w', 'n', 'e', 'r', 's', 'h', 'i', 'p', 'C', 'o', 's', 't'], ['S', 'a', 'l', 'e', 'T', 'y', 'p', 'e'], ['S', 'a', 'l', 'e', 'P', 'r', 'i', 'c', 'e'], ['C', 'a', 't', 'e', 'g', 'o', 'r', 'y'], ['L', 'a', 's', 't', 'O', 'w', 'n', 'e', 'r', 'I', 'D'], ['N', 'a', 'm', 'e'], ['D', 'e', 's', 'c', 'r', 'i', 'p', 't', 'i', 'o', 'n']])]

theorem w194 : Checked t194 := ⟨b194, by kernel_rfl, by kernel_rfl, by kernel_rfl⟩

/-- Lines of `message_template.msg` up to the end of `RequestPayPrice`. -/
def c195 : List (List Char) :=
  [chars! "",
   chars! "// RequestPayPrice",
   chars! "// viewer -> sim",
   chars! "{",
   chars! "\tRequestPayPrice Low 161 NotTrusted Unencoded",
   chars! "\t{",
   chars! "\t\tObjectData\t\tSingle",
   chars! "\t\t{\tObjectID\tLLUUID\t}",
   chars! "\t}",
   chars! "}"]

/-- `RequestPayPrice` as the parser creates it. -/
def r195 : RawTemplate :=
  ⟨"RequestPayPrice", .low, 161, [255, 255, 161], some .notTrusted, some .unencoded, some .notDeprecated,
    [⟨"ObjectData", .single, 0, [⟨"ObjectID", some .uuid, some 16⟩]⟩]⟩

/-- `RequestPayPrice` in file order. -/
def t195 : Template :=
  ⟨"RequestPayPrice", .low, 161, [], some .notTrusted, some .unencoded, some .notDeprecated,
    [⟨"ObjectData", .single, 0, [⟨"ObjectID", .uuid, 16⟩]⟩]⟩

theorem p195 : ChunkOk c195 r195 := by intro v older; kernel_rfl
theorem k195 : r195.known = some t195 := by kernel_rfl
theorem n195 : t195.name = String.ofList ['R', 'e', 'q', 'u', 'e', 's', 't', 'P', 'a', 'y', 'P', 'r', 'i', 'c', 'e'] := by kernel_rfl

/-- The names of the blocks and variables of `RequestPayPrice`. -/
def b195 : List (List Char × List (List Char)) :=
  [(['O', 'b', 'j', 'e', 'c', 't', 'D', 'a', 't', 'a'], [['O', 'b', 'j', 'e', 'c', 't', 'I', 'D']])]

theorem w195 : Checked t195 := ⟨b195, by kernel_rfl, by kernel_rfl, by kernel_rfl⟩

/-- Lines of `message_template.msg` up to the end of `PayPriceReply`. -/
def c196 : List (List Char) :=
  [chars! "",
   chars! "// PayPriceReply",
   chars! "// sim -> viewer",
   chars! "{",
   chars! "\tPayPriceReply Low 162 Trusted Unencoded",
   chars! "\t{",
   chars! "\t\tObjectData\t\tSingle",
   chars! "\t\t{\tObjectID\tLLUUID }",
   chars! "\t\t{\tDefaultPayPrice\tS32\t}",
   chars! "\t}",
   chars! "\t{",
   chars! "\t\tButtonData\t\tVariable",
   chars! "\t\t",
   chars! "\t\t{\tPayButton\tS32\t}",
   chars! "\t}",
   chars! "}"]

/-- `PayPriceReply` as the parser creates it. -/
def r196 : RawTemplate :=
  ⟨"PayPriceReply", .low, 162, [255, 255, 162], some .trusted, some .unencoded, some .notDeprecated,
    [⟨"ButtonData", .variable, 0, [⟨"PayButton", some .s32, some 4⟩]⟩,
     ⟨"ObjectData", .single, 0, [⟨"DefaultPayPrice", some .s32, some 4⟩, ⟨"ObjectID", some .uuid, some 16⟩]⟩]⟩

/-- `PayPriceReply` in file order. -/
def t196 : Template :=
  ⟨"PayPriceReply", .low, 162, [], some .trusted, some .unencoded, some .notDeprecated,
    [⟨"ObjectData", .single, 0, [⟨"ObjectID", .uuid, 16⟩, ⟨"DefaultPayPrice", .s32, 4⟩]⟩,
     ⟨"ButtonData", .variable, 0, [⟨"PayButton", .s32, 4⟩]⟩]⟩

theorem p196 : ChunkOk c196 r196 := by intro v older; kernel_rfl
theorem k196 : r196.known = some t196 := by kernel_rfl
theorem n196 : t196.name = String.ofList ['P', 'a', 'y', 'P', 'r', 'i', 'c', 'e', 'R', 'e', 'p', 'l', 'y'] := by kernel_rfl

/-- The names of the blocks and variables of `PayPriceReply`. -/
def b196 : List (List Char × List (List Char)) :=
  [(['O', 'b', 'j', 'e', 'c', 't', 'D', 'a', 't', 'a'], [['O', 'b', 'j', 'e', 'c', 't', 'I', 'D'], ['D', 'e', 'f', 'a', 'u', 'l', 't', 'P', 'a', 'y', 'P', 'r', 'i', 'c', 'e']]),
   (['B', 'u', 't', 't', 'o', 'n', 'D', 'a', 't', 'a'], [['P', 'a', 'y', 'B', 'u', 't', 't', 'o', 'n']])]

theorem w196 : Checked t196 := ⟨b196, by kernel_rfl, by kernel_rfl, by kernel_rfl⟩

/-- Lines of `message_template.msg` up to the end of `KickUser`. -/
def c197 : List (List Char) :=
  [chars! "",
   chars! "// KickUser",
   chars! "// *FIXME*",
   chars! "// Kick off a logged-in user, such as when two people log in with the",
   chars! "// same account name.",
   chars! "// ROUTED dataserver -> userserver -> spaceserver -> simulator -> viewer",
   chars! "// reliable, but that may not matter if a system component is quitting",
   chars! "{",
   chars! "\tKickUser Low 163 Trusted Unencoded",
   chars! "\t{",
   chars! "\t\tTargetBlock\t\t\tSingle",
   chars! "\t\t{\tTargetIP\t\tIPADDR\t}\t// U32 encoded IP",
   chars! "\t\t{\tTargetPort\t\tIPPORT\t}",
   chars! "\t}",
   chars! "\t{",
   chars! "\t\tUserInfo\t\tSingle",
   chars! "\t\t{\tAgentID\t\tLLUUID\t}",
   chars! "\t\t{\tSessionID\tLLUUID\t}",
   chars! "\t\t{\tReason\t\tVariable\t2\t}\t// string",
   chars! "\t}",
   chars! "}"]

/-- `KickUser` as the parser creates it. -/
def r197 : RawTemplate :=
  ⟨"KickUser", .low, 163, [255, 255, 163], some .trusted, some .unencoded, some .notDeprecated,
    [⟨"UserInfo", .single, 0, [⟨"Reason", some .variable, some 2⟩, ⟨"SessionID", some .uuid, some 16⟩, ⟨"AgentID", some .uuid, some 16⟩]⟩,
     ⟨"TargetBlock", .single, 0, [⟨"TargetPort", some .ipport, some 2⟩, ⟨"TargetIP", some .ipaddr, some 4⟩]⟩]⟩

/-- `KickUser` in file order. -/
def t197 : Template :=
  ⟨"KickUser", .low, 163, [], some .trusted, some .unencoded, some .notDeprecated,
    [⟨"TargetBlock", .single, 0, [⟨"TargetIP", .ipaddr, 4⟩, ⟨"TargetPort", .ipport, 2⟩]⟩,
     ⟨"UserInfo", .single, 0, [⟨"AgentID", .uuid, 16⟩, ⟨"SessionID", .uuid, 16⟩, ⟨"Reason", .variable, 2⟩]⟩]⟩

theorem p197 : ChunkOk c197 r197 := by intro v older; kernel_rfl
theorem k197 : r197.known = some t197 := by kernel_rfl
theorem n197 : t197.name = String.ofList ['K', 'i', 'c', 'k', 'U', 's', 'e', 'r'] := by kernel_rfl

/-- The names of the blocks and variables of `KickUser`. -/
def b197 : List (List Char × List (List Char)) :=
  [(['T', 'a', 'r', 'g', 'e', 't', 'B', 'l', 'o', 'c', 'k'], [['T', 'a', 'r', 'g', 'e', 't', 'I', 'P'], ['T', 'a', 'r', 'g', 'e', 't', 'P', 'o', 'r', 't']]),
   (['U', 's', 'e', 'r', 'I', 'n', 'f', 'o'], [['A', 'g', 'e', 'n', 't', 'I', 'D'], ['S', 'e', 's', 's', 'i', 'o', 'n', 'I', 'D'], ['R', 'e', 'a', 's', 'o', 'n']])]

theorem w197 : Checked t197 := ⟨b197, by kernel_rfl, by kernel_rfl, by kernel_rfl⟩

/-- Lines of `message_template.msg` up to the end of `KickUserAck`. -/
def c198 : List (List Char) :=
  [chars! "",
   chars! "// ack sent from the simulator up to the main database so that login",
   chars! "// can continue.",
   chars! "{",
   chars! "\tKickUserAck Low 164 Trusted Unencoded",
   chars! "\t{",
   chars! "\t\tUserInfo\t\tSingle",
   chars! "\t\t{\tSessionID\tLLUUID\t}",
   chars! "\t\t{\tFlags\t\tU32\t\t}",
   chars! "\t}",
   chars! "}"]

/-- `KickUserAck` as the parser creates it. -/
def r198 : RawTemplate :=
  ⟨"KickUserAck", .low, 164, [255, 255, 164], some .trusted, some .unencoded, some .notDeprecated,
    [⟨"UserInfo", .single, 0, [⟨"Flags", some .u32, some 4⟩, ⟨"SessionID", some .uuid, some 16⟩]⟩]⟩

/-- `KickUserAck` in file order. -/
def t198 : Template :=
  ⟨"KickUserAck", .low, 164, [], some .trusted, some .unencoded, some .notDeprecated,
    [⟨"UserInfo", .single, 0, [⟨"SessionID", .uuid, 16⟩, ⟨"Flags", .u32, 4⟩]⟩]⟩

theorem p198 : ChunkOk c198 r198 := by intro v older; kernel_rfl
theorem k198 : r198.known = some t198 := by kernel_rfl
theorem n198 : t198.name = String.ofList ['K', 'i', 'c', 'k', 'U', 's', 'e', 'r', 'A', 'c', 'k'] := by kernel_rfl

/-- The names of the blocks and variables of `KickUserAck`. -/
def b198 : List (List Char × List (List Char)) :=
  [(['U', 's', 'e', 'r', 'I', 'n', 'f', 'o'], [['S', 'e', 's', 's', 'i', 'o', 'n', 'I', 'D'], ['F', 'l', 'a', 'g', 's']])]

theorem w198 : Checked t198 := ⟨b198, by kernel_rfl, by kernel_rfl, by kernel_rfl⟩

/-- Lines of `message_template.msg` up to the end of `GodKickUser`. -/
def c199 : List (List Char) :=
  [chars! "",
   chars! "// GodKickUser",
   chars! "// When a god wants someone kicked",
   chars! "// viewer -> sim",
   chars! "// reliable",
   chars! "{",
   chars! "\tGodKickUser Low 165 NotTrusted Unencoded",
   chars! "\t{",
   chars! "\t\tUserInfo\t\tSingle",
   chars! "\t\t{\tGodID\t\t\tLLUUID\t}",
   chars! "\t\t{\tGodSessionID\tLLUUID\t}",
   chars! "\t\t{\tAgentID\t\t\tLLUUID\t}",
   chars! "\t\t{\tKickFlags\t\tU32\t}",
   chars! "\t\t{\tReason\t\t\tVariable\t2\t}\t// string",
   chars! "\t}",
   chars! "}"]

/-- `GodKickUser` as the parser creates it. -/
def r199 : RawTemplate :=
  ⟨"GodKickUser", .low, 165, [255, 255, 165], some .notTrusted, some .unencoded, some .notDeprecated,
    [⟨"UserInfo", .single, 0, [⟨"Reason", some .variable, some 2⟩, ⟨"KickFlags", some .u32, some 4⟩, ⟨"AgentID", some .uuid, some 16⟩, ⟨"GodSessionID", some .uuid, some 16⟩, ⟨"GodID", some .uuid, some 16⟩]⟩]⟩

/-- `GodKickUser` in file order. -/
def t199 : Template :=
  ⟨"GodKickUser", .low, 165, [], some .notTrusted, some .unencoded, some .notDeprecated,
    [⟨"UserInfo", .single, 0, [⟨"GodID", .uuid, 16⟩, ⟨"GodSessionID", .uuid, 16⟩, ⟨"AgentID", .uuid, 16⟩, ⟨"KickFlags", .u32, 4⟩, ⟨"Reason", .variable, 2⟩]⟩]⟩

theorem p199 : ChunkOk c199 r199 := by intro v older; kernel_rfl
theorem k199 : r199.known = some t199 := by kernel_rfl
theorem n199 : t199.name = String.ofList ['G', 'o', 'd', 'K', 'i', 'c', 'k', 'U', 's', 'e', 'r'] := by kernel_rfl

/-- The names of the blocks and variables of `GodKickUser`. -/
def b199 : List (List Char × List (List Char)) :=
  [(['U', 's', 'e', 'r', 'I', 'n', 'f', 'o'], [['G', 'o', 'd', 'I', 'D'], ['G', 'o', 'd', 'S', 'e', 's', 's', 'i', 'o', 'n', 'I', 'D'], ['A', 'g', 'e', 'n', 't', 'I', 'D'], ['K', 'i', 'c', 'k', 'F', 'l', 'a', 'g', 's'], ['R', 'e', 'a', 's', 'o', 'n']])]

theorem w199 : Checked t199 := ⟨b199, by kernel_rfl, by kernel_rfl, by kernel_rfl⟩

/-- Lines of `message_template.msg` up to the end of `SystemKickUser`. -/
def c200 : List (List Char) :=
  [chars! "",
   chars! "// SystemKickUser",
   chars! "// user->space, reliable",
   chars! "{",
   chars! "\tSystemKickUser\tLow\t166 Trusted Unencoded",
   chars! "\t{",
   chars! "\t\tAgentInfo\tVariable",
   chars! "\t\t{\tAgentID\tLLUUID\t}",
   chars! "\t}",
   chars! "}"]

/-- `SystemKickUser` as the parser creates it. -/
def r200 : RawTemplate :=
  ⟨"SystemKickUser", .low, 166, [255, 255, 166], some .trusted, some .unencoded, some .notDeprecated,
    [⟨"AgentInfo", .variable, 0, [⟨"AgentID", some .uuid, some 16⟩]⟩]⟩

/-- `SystemKickUser` in file order. -/
def t200 : Template :=
  ⟨"SystemKickUser", .low, 166, [], some .trusted, some .unencoded, some .notDeprecated,
    [⟨"AgentInfo", .variable, 0, [⟨"AgentID", .uuid, 16⟩]⟩]⟩

theorem p200 : ChunkOk c200 r200 := by intro v older; kernel_rfl
theorem k200 : r200.known = some t200 := by kernel_rfl
theorem n200 : t200.name = String.ofList ['S', 'y', 's', 't', 'e', 'm', 'K', 'i', 'c', 'k', 'U', 's', 'e', 'r'] := by kernel_rfl

/-- The names of the blocks and variables of `SystemKickUser`. -/
def b200 : List (List Char × List (List Char)) :=
  [(['A', 'g', 'e', 'n', 't', 'I', 'n', 'f', 'o'], [['A', 'g', 'e', 'n', 't', 'I', 'D']])]

theorem w200 : Checked t200 := ⟨b200, by kernel_rfl, by kernel_rfl, by kernel_rfl⟩

/-- Lines of `message_template.msg` up to the end of `EjectUser`. -/
def c201 : List (List Char) :=
  [chars! "",
   chars! "// EjectUser",
   chars! "// viewer -> sim",
   chars! "// reliable",
   chars! "{",
   chars! "\tEjectUser\tLow\t167 \tNotTrusted Unencoded",
   chars! "\t{",
   chars! "\t\tAgentData\t\tSingle",
   chars! "\t\t{\tAgentID\t\tLLUUID\t}",
   chars! "\t\t{\tSessionID\tLLUUID\t}",
   chars! "\t}",
   chars! "\t{",
   chars! "\t\tData\t\tSingle",
   chars! "\t\t{\tTargetID\tLLUUID\t}",
   chars! "\t\t{\tFlags\t\tU32\t\t}",
   chars! "\t}",
   chars! "}"]

/-- `EjectUser` as the parser creates it. -/
def r201 : RawTemplate :=
  ⟨"EjectUser", .low, 167, [255, 255, 167], some .notTrusted, some .unencoded, some .notDeprecated,
    [⟨"Data", .single, 0, [⟨"Flags", some .u32, some 4⟩, ⟨"TargetID", some .uuid, some 16⟩]⟩,
     ⟨"AgentData", .single, 0, [⟨"SessionID", some .uuid, some 16⟩, ⟨"AgentID", some .uuid, some 16⟩]⟩]⟩

/-- `EjectUser` in file order. -/
def t201 : Template :=
  ⟨"EjectUser", .low, 167, [], some .notTrusted, some .unencoded, some .notDeprecated,
    [⟨"AgentData", .single, 0, [⟨"AgentID", .uuid, 16⟩, ⟨"SessionID", .uuid, 16⟩]⟩,
     ⟨"Data", .single, 0, [⟨"TargetID", .uuid, 16⟩, ⟨"Flags", .u32, 4⟩]⟩]⟩

theorem p201 : ChunkOk c201 r201 := by intro v older; kernel_rfl
theorem k201 : r201.known = some t201 := by kernel_rfl
theorem n201 : t201.name = String.ofList ['E', 'j', 'e', 'c', 't', 'U', 's', 'e', 'r'] := by kernel_rfl

/-- The names of the blocks and variables of `EjectUser`. -/
def b201 : List (List Char × List (List Char)) :=
  [(['A', 'g', 'e', 'n', 't', 'D', 'a', 't', 'a'], [['A', 'g', 'e', 'n', 't', 'I', 'D'], ['S', 'e', 's', 's', 'i', 'o', 'n', 'I', 'D']]),
   (['D', 'a', 't', 'a'], [['T', 'a', 'r', 'g', 'e', 't', 'I', 'D'], ['F', 'l', 'a', 'g', 's']])]

theorem w201 : Checked t201 := ⟨b201, by kernel_rfl, by kernel_rfl, by kernel_rfl⟩

/-- Lines of `message_template.msg` up to the end of `FreezeUser`. -/
def c202 : List (List Char) :=
  [chars! "",
   chars! "// FreezeUser",
   chars! "// Freeze someone who is on my land.",
   chars! "// viewer -> sim",
   chars! "// reliable",
   chars! "{",
   chars! "\tFreezeUser\tLow\t168 NotTrusted Unencoded",
   chars! "\t{",
   chars! "\t\tAgentData\t\tSingle",
   chars! "\t\t{\tAgentID\t\tLLUUID\t}",
   chars! "\t\t{\tSessionID\tLLUUID\t}",
   chars! "\t}",
   chars! "\t{",
   chars! "\t\tData\t\tSingle",
   chars! "\t\t{\tTargetID\tLLUUID\t}",
   chars! "\t\t{\tFlags\t\tU32\t\t}",
   chars! "\t}",
   chars! "}"]

/-- `FreezeUser` as the parser creates it. -/
def r202 : RawTemplate :=
  ⟨"FreezeUser", .low, 168, [255, 255, 168], some .notTrusted, some .unencoded, some .notDeprecated,
    [⟨"Data", .single, 0, [⟨"Flags", some .u32, some 4⟩, ⟨"TargetID", some .uuid, some 16⟩]⟩,
     ⟨"AgentData", .single, 0, [⟨"SessionID", some .uuid, some 16⟩, ⟨"AgentID", some .uuid, some 16⟩]⟩]⟩

/-- `FreezeUser` in file order. -/
def t202 : Template :=
  ⟨"FreezeUser", .low, 168, [], some .notTrusted, some .unencoded, some .notDeprecated,
    [⟨"AgentData", .single, 0, [⟨"AgentID", .uuid, 16⟩, ⟨"SessionID", .uuid, 16⟩]⟩,
     ⟨"Data", .single, 0, [⟨"TargetID", .uuid, 16⟩, ⟨"Flags", .u32, 4⟩]⟩]⟩

theorem p202 : ChunkOk c202 r202 := by intro v older; kernel_rfl
theorem k202 : r202.known = some t202 := by kernel_rfl
theorem n202 : t202.name = String.ofList ['F', 'r', 'e', 'e', 'z', 'e', 'U', 's', 'e', 'r'] := by kernel_rfl

/-- The names of the blocks and variables of `FreezeUser`. -/
def b202 : List (List Char × List (List Char)) :=
  [(['A', 'g', 'e', 'n', 't', 'D', 'a', 't', 'a'], [['A', 'g', 'e', 'n', 't', 'I', 'D'], ['S', 'e', 's', 's', 'i', 'o', 'n', 'I', 'D']]),
   (['D', 'a', 't', 'a'], [['T', 'a', 'r', 'g', 'e', 't', 'I', 'D'], ['F', 'l', 'a', 'g', 's']])]

theorem w202 : Checked t202 := ⟨b202, by kernel_rfl, by kernel_rfl, by kernel_rfl⟩

/-- Lines of `message_template.msg` up to the end of `AvatarPropertiesRequest`. -/
def c203 : List (List Char) :=
  [chars! "",
   chars! "",
   chars! "// AvatarPropertiesRequest",
   chars! "// viewer -> simulator",
   chars! "// reliable",
   chars! "{",
   chars! "\tAvatarPropertiesRequest Low 169 NotTrusted Unencoded",
   chars! "\t{",
   chars! "\t\tAgentData\t\tSingle",
   chars! "\t\t{\tAgentID\t\t\tLLUUID\t}",
   chars! "\t\t{\tSessionID\t\tLLUUID\t}",
   chars! "\t\t{\tAvatarID\t\tLLUUID\t}",
   chars! "\t}",
   chars! "}"]

/-- `AvatarPropertiesRequest` as the parser creates it. -/
def r203 : RawTemplate :=
  ⟨"AvatarPropertiesRequest", .low, 169, [255, 255, 169], some .notTrusted, some .unencoded, some .notDeprecated,
    [⟨"AgentData", .single, 0, [⟨"AvatarID", some .uuid, some 16⟩, ⟨"SessionID", some .uuid, some 16⟩, ⟨"AgentID", some .uuid, some 16⟩]⟩]⟩

/-- `AvatarPropertiesRequest` in file order. -/
def t203 : Template :=
  ⟨"AvatarPropertiesRequest", .low, 169, [], some .notTrusted, some .unencoded, some .notDeprecated,
    [⟨"AgentData", .single, 0, [⟨"AgentID", .uuid, 16⟩, ⟨"SessionID", .uuid, 16⟩, ⟨"AvatarID", .uuid, 16⟩]⟩]⟩

theorem p203 : ChunkOk c203 r203 := by intro v older; kernel_rfl
theorem k203 : r203.known = some t203 := by kernel_rfl
theorem n203 : t203.name = String.ofList ['A', 'v', 'a', 't', 'a', 'r', 'P', 'r', 'o', 'p', 'e', 'r', 't', 'i', 'e', 's', 'R', 'e', 'q', 'u', 'e', 's', 't'] := by kernel_rfl

/-- The names of the blocks and variables of `AvatarPropertiesRequest`. -/
def b203 : List (List Char × List (List Char)) :=
  [(['A', 'g', 'e', 'n', 't', 'D', 'a', 't', 'a'], [['A', 'g', 'e', 'n', 't', 'I', 'D'], ['S', 'e', 's', 's', 'i', 'o', 'n', 'I', 'D'], ['A', 'v', 'a', 't', 'a', 'r', 'I', 'D']])]

theorem w203 : Checked t203 := ⟨b203, by kernel_rfl, by kernel_rfl, by kernel_rfl⟩

/-- Lines of `message_template.msg` up to the end of `AvatarPropertiesRequestBackend`. -/
def c204 : List (List Char) :=
  [chars! "",
   chars! "// AvatarPropertiesRequestBackend",
   chars! "// simulator -> dataserver",
   chars! "// reliable",
   chars! "{",
   chars! "\tAvatarPropertiesRequestBackend Low 170 Trusted Unencoded",
   chars! "\t{",
   chars! "\t\tAgentData\t\tSingle",
   chars! "\t\t{\tAgentID\t\t\tLLUUID\t}",
   chars! "\t\t{\tAvatarID\t\tLLUUID\t}",
   chars! "\t\t{\tGodLevel\t\tU8\t\t}",
   chars! "\t\t{\tWebProfilesDisabled\t\tBOOL\t}",
   chars! "\t}",
   chars! "}"]

/-- `AvatarPropertiesRequestBackend` as the parser creates it. -/
def r204 : RawTemplate :=
  ⟨"AvatarPropertiesRequestBackend", .low, 170, [255, 255, 170], some .trusted, some .unencoded, some .notDeprecated,
    [⟨"AgentData", .single, 0, [⟨"WebProfilesDisabled", some .bool, some 1⟩, ⟨"GodLevel", some .u8, some 1⟩, ⟨"AvatarID", some .uuid, some 16⟩, ⟨"AgentID", some .uuid, some 16⟩]⟩]⟩

/-- `AvatarPropertiesRequestBackend` in file order. -/
def t204 : Template :=
  ⟨"AvatarPropertiesRequestBackend", .low, 170, [], some .trusted, some .unencoded, some .notDeprecated,
    [⟨"AgentData", .single, 0, [⟨"AgentID", .uuid, 16⟩, ⟨"AvatarID", .uuid, 16⟩, ⟨"GodLevel", .u8, 1⟩, ⟨"WebProfilesDisabled", .bool, 1⟩]⟩]⟩

theorem p204 : ChunkOk c204 r204 := by intro v older; kernel_rfl
theorem k204 : r204.known = some t204 := by kernel_rfl
theorem n204 : t204.name = String.ofList ['A', 'v', 'a', 't', 'a', 'r', 'P', 'r', 'o', 'p', 'e', 'r', 't', 'i', 'e', 's', 'R', 'e', 'q', 'u', 'e', 's', 't', 'B', 'a', 'c', 'k', 'e', 'n', 'd'] := by kernel_rfl

/-- The names of the blocks and variables of `AvatarPropertiesRequestBackend`. -/
def b204 : List (List Char × List (List Char)) :=
  [(['A', 'g', 'e', 'n', 't', 'D', 'a', 't', 'a'], [['A', 'g', 'e', 'n', 't', 'I', 'D'], ['A', 'v', 'a', 't', 'a', 'r', 'I', 'D'], ['G', 'o', 'd', 'L', 'e', 'v', 'e', 'l'], ['W', 'e', 'b', 'P', 'r', 'o', 'f', 'i', 'l', 'e', 's', 'D', 'i', 's', 'a', 'b', 'l', 'e', 'd']])]

theorem w204 : Checked t204 := ⟨b204, by kernel_rfl, by kernel_rfl, by kernel_rfl⟩

/-- Lines of `message_template.msg` up to the end of `AvatarPropertiesReply`. -/
def c205 : List (List Char) :=
  [chars! "// AvatarPropertiesReply",
   chars! "// dataserver -> simulator",
   chars! "// simulator -> viewer",
   chars! "// reliable",
   chars! "{",
   chars! "\tAvatarPropertiesReply Low 171 Trusted Zerocoded",
   chars! "\t{",
   chars! "\t\tAgentData\t\t\tSingle",
   chars! "\t\t{\tAgentID\t\t\tLLUUID\t\t}\t// your id",
   chars! "\t\t{\tAvatarID\t\tLLUUID\t\t}\t// avatar you're asking about",
   chars! "\t}",
   chars! "\t{",
   chars! "\t\tPropertiesData\t\tSingle",
   chars! "\t\t{\tImageID\t\t\tLLUUID\t\t}",
   chars! "\t\t{\tFLImageID\t\tLLUUID\t\t}",
   chars! "\t\t{\tPartnerID\t\tLLUUID\t\t}",
   chars! "\t\t{\tAboutText\t\tVariable 2\t}\t// string, up to 512",
   chars! "\t\t{\tFLAboutText\t\tVariable 1\t}\t// string",
   chars! "\t\t{\tBornOn\t\t\tVariable 1\t}\t// string",
   chars! "\t\t{\tProfileURL\t\tVariable 1\t}\t// string",
   chars! "\t\t{\tCharterMember\tVariable 1\t}\t// special - usually U8",
   chars! "\t\t{\tFlags\t\t\tU32\t\t\t}",
   chars! "\t}",
   chars! "}"]

/-- `AvatarPropertiesReply` as the parser creates it. -/
def r205 : RawTemplate :=
  ⟨"AvatarPropertiesReply", .low, 171, [255, 255, 171], some .trusted, some .zerocoded, some .notDeprecated,
    [⟨"PropertiesData", .single, 0, [⟨"Flags", some .u32, some 4⟩, ⟨"CharterMember", some .variable, some 1⟩, ⟨"ProfileURL", some .variable, some 1⟩, ⟨"BornOn", some .variable, some 1⟩, ⟨"FLAboutText", some .variable, some 1⟩, ⟨"AboutText", some .variable, some 2⟩, ⟨"PartnerID", some .uuid, some 16⟩, ⟨"FLImageID", some .uuid, some 16⟩, ⟨"ImageID", some .uuid, some 16⟩]⟩,
     ⟨"AgentData", .single, 0, [⟨"AvatarID", some .uuid, some 16⟩, ⟨"AgentID", some .uuid, some 16⟩]⟩]⟩

/-- `AvatarPropertiesReply` in file order. -/
def t205 : Template :=
  ⟨"AvatarPropertiesReply", .low, 171, [], some .trusted, some .zerocoded, some .notDeprecated,
    [⟨"AgentData", .single, 0, [⟨"AgentID", .uuid, 16⟩, ⟨"AvatarID", .uuid, 16⟩]⟩,
     ⟨"PropertiesData", .single, 0, [⟨"ImageID", .uuid, 16⟩, ⟨"FLImageID", .uuid, 16⟩, ⟨"PartnerID", .uuid, 16⟩, ⟨"AboutText", .variable, 2⟩, ⟨"FLAboutText", .variable, 1⟩, ⟨"BornOn", .variable, 1⟩, ⟨"ProfileURL", .variable, 1⟩, ⟨"CharterMember", .variable, 1⟩, ⟨"Flags", .u32, 4⟩]⟩]⟩

theorem p205 : ChunkOk c205 r205 := by intro v older; kernel_rfl
theorem k205 : r205.known = some t205 := by kernel_rfl
theorem n205 : t205.name = String.ofList ['A', 'v', 'a', 't', 'a', 'r', 'P', 'r', 'o', 'p', 'e', 'r', 't', 'i', 'e', 's', 'R', 'e', 'p', 'l', 'y'] := by kernel_rfl

/-- The names of the blocks and variables of `AvatarPropertiesReply`. -/
def b205 : List (List Char × List (List Char)) :=
  [(['A', 'g', 'e', 'n', 't', 'D', 'a', 't', 'a'], [['A', 'g', 'e', 'n', 't', 'I', 'D'], ['A', 'v', 'a', 't', 'a', 'r', 'I', 'D']]),
   (['P', 'r', 'o', 'p', 'e', 'r', 't', 'i', 'e', 's', 'D', 'a', 't', 'a'], [['I', 'm', 'a', 'g', 'e', 'I', 'D'], ['F', 'L', 'I', 'm', 'a', 'g', 'e', 'I', 'D'], ['P', 'a', 'r', 't', 'n', 'e', 'r', 'I', 'D'], ['A', 'b', 'o', 'u', 't', 'T', 'e', 'x', 't'], ['F', 'L', 'A', 'b', 'o', 'u', 't', 'T', 'e', 'x', 't'], ['B', 'o', 'r', 'n', 'O', 'n'], ['P', 'r', 'o', 'f', 'i', 'l', 'e', 'U', 'R', 'L'], ['C', 'h', 'a', 'r', 't', 'e', 'r', 'M', 'e', 'm', 'b', 'e', 'r'], ['F', 'l', 'a', 'g', 's']])]

theorem w205 : Checked t205 := ⟨b205, by kernel_rfl, by kernel_rfl, by kernel_rfl⟩

/-- Lines of `message_template.msg` up to the end of `AvatarInterestsReply`. -/
def c206 : List (List Char) :=
  [chars! "",
   chars! "{",
   chars! "\tAvatarInterestsReply Low 172 Trusted Zerocoded",
   chars! "\t{",
   chars! "\t\tAgentData\t\t\tSingle",
   chars! "\t\t{\tAgentID\t\t\tLLUUID\t\t}\t// your id",
   chars! "\t\t{\tAvatarID\t\tLLUUID\t\t}\t// avatar you're asking about",
   chars! "\t}",
   chars! "\t{",
   chars! "\t\tPropertiesData\t\tSingle",
   chars! "\t\t{\tWantToMask\t\tU32\t\t\t}",
   chars! "\t\t{\tWantToText\t\tVariable 1\t}\t// string",
   chars! "\t\t{\tSkillsMask\t\tU32\t\t\t}",
   chars! "\t\t{\tSkillsText\t\tVariable 1\t}\t// string",
   chars! "\t\t{\tLanguagesText\tVariable 1\t}\t// string",
   chars! "\t}",
   chars! "}"]

/-- `AvatarInterestsReply` as the parser creates it. -/
def r206 : RawTemplate :=
  ⟨"AvatarInterestsReply", .low, 172, [255, 255, 172], some .trusted, some .zerocoded, some .notDeprecated,
    [⟨"PropertiesData", .single, 0, [⟨"LanguagesText", some .variable, some 1⟩, ⟨"SkillsText", some .variable, some 1⟩, ⟨"SkillsMask", some .u32, some 4⟩, ⟨"WantToText", some .variable, some 1⟩, ⟨"WantToMask", some .u32, some 4⟩]⟩,
     ⟨"AgentData", .single, 0, [⟨"AvatarID", some .uuid, some 16⟩, ⟨"AgentID", some .uuid, some 16⟩]⟩]⟩

/-- `AvatarInterestsReply` in file order. -/
def t206 : Template :=
  ⟨"AvatarInterestsReply", .low, 172, [], some .trusted, some .zerocoded, some .notDeprecated,
    [⟨"AgentData", .single, 0, [⟨"AgentID", .uuid, 16⟩, ⟨"AvatarID", .uuid, 16⟩]⟩,
     ⟨"PropertiesData", .single, 0, [⟨"WantToMask", .u32, 4⟩, ⟨"WantToText", .variable, 1⟩, ⟨"SkillsMask", .u32, 4⟩, ⟨"SkillsText", .variable, 1⟩, ⟨"LanguagesText", .variable, 1⟩]⟩]⟩

theorem p206 : ChunkOk c206 r206 := by intro v older; kernel_rfl
theorem k206 : r206.known = some t206 := by kernel_rfl
theorem n206 : t206.name = String.ofList ['A', 'v', 'a', 't', 'a', 'r', 'I', 'n', 't', 'e', 'r', 'e', 's', 't', 's', 'R', 'e', 'p', 'l', 'y'] := by kernel_rfl

/-- The names of the blocks and variables of `AvatarInterestsReply`. -/
def b206 : List (List Char × List (List Char)) :=
  [(['A', 'g', 'e', 'n', 't', 'D', 'a', 't', 'a'], [['A', 'g', 'e', 'n', 't', 'I', 'D'], ['A', 'v', 'a', 't', 'a', 'r', 'I', 'D']]),
   (['P', 'r', 'o', 'p', 'e', 'r', 't', 'i', 'e', 's', 'D', 'a', 't', 'a'], [['W', 'a', 'n', 't', 'T', 'o', 'M', 'a', 's', 'k'], ['W', 'a', 'n', 't', 'T', 'o', 'T', 'e', 'x', 't'], ['S', 'k', 'i', 'l', 'l', 's', 'M', 'a', 's', 'k'], ['S', 'k', 'i', 'l', 'l', 's', 'T', 'e', 'x', 't'], ['L', 'a', 'n', 'g', 'u', 'a', 'g', 'e', 's', 'T', 'e', 'x', 't']])]

theorem w206 : Checked t206 := ⟨b206, by kernel_rfl, by kernel_rfl, by kernel_rfl⟩

/-- Lines of `message_template.msg` up to the end of `AvatarGroupsReply`. -/
def c207 : List (List Char) :=
  [chars! "",
   chars! "// AvatarGroupsReply",
   chars! "// dataserver -> simulator",
   chars! "// simulator -> viewer",
   chars! "// reliable",
   chars! "{",
   chars! "\tAvatarGroupsReply Low 173 Trusted Zerocoded",
   chars! "\t{",
   chars! "\t\tAgentData\t\t\tSingle",
   chars! "\t\t{\tAgentID\t\t\tLLUUID\t\t}\t// your id",
   chars! "\t\t{\tAvatarID\t\tLLUUID\t\t}\t// avatar you're asking about",
   chars! "\t}",
   chars! "\t{",
   chars! "\t\tGroupData\t\t\tVariable",
   chars! "\t\t{\tGroupPowers\t\t\tU64\t\t\t}",
   chars! "\t\t{\tAcceptNotices\t\tBOOL\t\t}",
   chars! "\t\t{\tGroupTitle\t\t\tVariable 1\t}",
   chars! "\t\t{\tGroupID\t\t\t\tLLUUID\t\t}",
   chars! "\t\t{\tGroupName\t\t\tVariable 1\t}",
   chars! "\t\t{\tGroupInsigniaID\t\tLLUUID\t\t}",
   chars! "\t}",
   chars! "\t{",
   chars! "\t\tNewGroupData\t\tSingle",
   chars! "\t\t{\tListInProfile\tBOOL\t\t}\t// whether group displays in profile",
   chars! "\t}",
   chars! "}"]

/-- `AvatarGroupsReply` as the parser creates it. -/
def r207 : RawTemplate :=
  ⟨"AvatarGroupsReply", .low, 173, [255, 255, 173], some .trusted, some .zerocoded, some .notDeprecated,
    [⟨"NewGroupData", .single, 0, [⟨"ListInProfile", some .bool, some 1⟩]⟩,
     ⟨"GroupData", .variable, 0, [⟨"GroupInsigniaID", some .uuid, some 16⟩, ⟨"GroupName", some .variable, some 1⟩, ⟨"GroupID", some .uuid, some 16⟩, ⟨"GroupTitle", some .variable, some 1⟩, ⟨"AcceptNotices", some .bool, some 1⟩, ⟨"GroupPowers", some .u64, some 8⟩]⟩,
     ⟨"AgentData", .single, 0, [⟨"AvatarID", some .uuid, some 16⟩, ⟨"AgentID", some .uuid, some 16⟩]⟩]⟩

/-- `AvatarGroupsReply` in file order. -/
def t207 : Template :=
  ⟨"AvatarGroupsReply", .low, 173, [], some .trusted, some .zerocoded, some .notDeprecated,
    [⟨"AgentData", .single, 0, [⟨"AgentID", .uuid, 16⟩, ⟨"AvatarID", .uuid, 16⟩]⟩,
     ⟨"GroupData", .variable, 0, [⟨"GroupPowers", .u64, 8⟩, ⟨"AcceptNotices", .bool, 1⟩, ⟨"GroupTitle", .variable, 1⟩, ⟨"GroupID", .uuid, 16⟩, ⟨"GroupName", .variable, 1⟩, ⟨"GroupInsigniaID", .uuid, 16⟩]⟩,
     ⟨"NewGroupData", .single, 0, [⟨"ListInProfile", .bool, 1⟩]⟩]⟩

theorem p207 : ChunkOk c207 r207 := by intro v older; kernel_rfl
theorem k207 : r207.known = some t207 := by kernel_rfl
theorem n207 : t207.name = String.ofList ['A', 'v', 'a', 't', 'a', 'r', 'G', 'r', 'o', 'u', 'p', 's', 'R', 'e', 'p', 'l', 'y'] := by kernel_rfl

/-- The names of the blocks and variables of `AvatarGroupsReply`. -/
def b207 : List (List Char × List (List Char)) :=
  [(['A', 'g', 'e', 'n', 't', 'D', 'a', 't', 'a'], [['A', 'g', 'e', 'n', 't', 'I', 'D'], ['A', 'v', 'a', 't', 'a', 'r', 'I', 'D']]),
   (['G', 'r', 'o', 'u', 'p', 'D', 'a', 't', 'a'], [['G', 'r', 'o', 'u', 'p', 'P', 'o', 'w', 'e', 'r', 's'], ['A', 'c', 'c', 'e', 'p', 't', 'N', 'o', 't', 'i', 'c', 'e', 's'], ['G', 'r', 'o', 'u', 'p', 'T', 'i', 't', 'l', 'e'], ['G', 'r', 'o', 'u', 'p', 'I', 'D'], ['G', 'r', 'o', 'u', 'p', 'N', 'a', 'm', 'e'], ['G', 'r', 'o', 'u', 'p', 'I', 'n', 's', 'i', 'g', 'n', 'i', 'a', 'I', 'D']]),
   (['N', 'e', 'w', 'G', 'r', 'o', 'u', 'p', 'D', 'a', 't', 'a'], [['L', 'i', 's', 't', 'I', 'n', 'P', 'r', 'o', 'f', 'i', 'l', 'e']])]

theorem w207 : Checked t207 := ⟨b207, by kernel_rfl, by kernel_rfl, by kernel_rfl⟩

/-- Lines of `message_template.msg` up to the end of `AvatarPropertiesUpdate`. -/
def c208 : List (List Char) :=
  [chars! "",
   chars! "",
   chars! "// AvatarPropertiesUpdate",
   chars! "// viewer -> simulator",
   chars! "// reliable",
   chars! "{",
   chars! "\tAvatarPropertiesUpdate Low 174 NotTrusted Zerocoded",
   chars! "\t{",
   chars! "\t\tAgentData\t\tSingle",
   chars! "\t\t{\tAgentID\t\tLLUUID\t}",
   chars! "\t\t{\tSessionID\tLLUUID\t}",
   chars! "\t}",
   chars! "\t{",
   chars! "\t\tPropertiesData\tSingle",
   chars! "\t\t{\tImageID\t\t\tLLUUID\t\t\t}",
   chars! "\t\t{\tFLImageID\t\tLLUUID\t\t\t}",
   chars! "\t\t{\tAboutText\t\tVariable\t2\t}\t// string, up to 512",
   chars! "\t\t{\tFLAboutText\t\tVariable\t1\t}",
   chars! "\t\t{\tAllowPublish\t\tBOOL\t\t\t}\t// whether profile is externally visible or not",
   chars! "\t\t{\tMaturePublish\t\tBOOL\t\t}\t// profile is \"mature\"",
   chars! "\t\t{\tProfileURL\t\tVariable\t1\t}\t// string",
   chars! "\t}",
   chars! "}"]

/-- `AvatarPropertiesUpdate` as the parser creates it. -/
def r208 : RawTemplate :=
  ⟨"AvatarPropertiesUpdate", .low, 174, [255, 255, 174], some .notTrusted, some .zerocoded, some .notDeprecated,
    [⟨"PropertiesData", .single, 0, [⟨"ProfileURL", some .variable, some 1⟩, ⟨"MaturePublish", some .bool, some 1⟩, ⟨"AllowPublish", some .bool, some 1⟩, ⟨"FLAboutText", some .variable, some 1⟩, ⟨"AboutText", some .variable, some 2⟩, ⟨"FLImageID", some .uuid, some 16⟩, ⟨"ImageID", some .uuid, some 16⟩]⟩,
     ⟨"AgentData", .single, 0, [⟨"SessionID", some .uuid, some 16⟩, ⟨"AgentID", some .uuid, some 16⟩]⟩]⟩

/-- `AvatarPropertiesUpdate` in file order. -/
def t208 : Template :=
  ⟨"AvatarPropertiesUpdate", .low, 174, [], some .notTrusted, some .zerocoded, some .notDeprecated,
    [⟨"AgentData", .single, 0, [⟨"AgentID", .uuid, 16⟩, ⟨"SessionID", .uuid, 16⟩]⟩,
     ⟨"PropertiesData", .single, 0, [⟨"ImageID", .uuid, 16⟩, ⟨"FLImageID", .uuid, 16⟩, ⟨"AboutText", .variable, 2⟩, ⟨"FLAboutText", .variable, 1⟩, ⟨"AllowPublish", .bool, 1⟩, ⟨"MaturePublish", .bool, 1⟩, ⟨"ProfileURL", .variable, 1⟩]⟩]⟩

theorem p208 : ChunkOk c208 r208 := by intro v older; kernel_rfl
theorem k208 : r208.known = some t208 := by kernel_rfl
theorem n208 : t208.name = String.ofList ['A', 'v', 'a', 't', 'a', 'r', 'P', 'r', 'o', 'p', 'e', 'r', 't', 'i', 'e', 's', 'U', 'p', 'd', 'a', 't', 'e'] := by kernel_rfl

/-- The names of the blocks and variables of `AvatarPropertiesUpdate`. -/
def b208 : List (List Char × List (List Char)) :=
  [(['A', 'g', 'e', 'n', 't', 'D', 'a', 't', 'a'], [['A', 'g', 'e', 'n', 't', 'I', 'D'], ['S', 'e', 's', 's', 'i', 'o', 'n', 'I', 'D']]),
   (['P', 'r', 'o', 'p', 'e', 'r', 't', 'i', 'e', 's', 'D', 'a', 't', 'a'], [['I', 'm', 'a', 'g', 'e', 'I', 'D'], ['F', 'L', 'I', 'm', 'a', 'g', 'e', 'I', 'D'], ['A', 'b', 'o', 'u', 't', 'T', 'e', 'x', 't'], ['F', 'L', 'A', 'b', 'o', 'u', 't', 'T', 'e', 'x', 't'], ['A', 'l', 'l', 'o', 'w', 'P', 'u', 'b', 'l', 'i', 's', 'h'], ['M', 'a', 't', 'u', 'r', 'e', 'P', 'u', 'b', 'l', 'i', 's', 'h'], ['P', 'r', 'o', 'f', 'i', 'l', 'e', 'U', 'R', 'L']])]

theorem w208 : Checked t208 := ⟨b208, by kernel_rfl, by kernel_rfl, by kernel_rfl⟩

/-- Lines of `message_template.msg` up to the end of `AvatarInterestsUpdate`. -/
def c209 : List (List Char) :=
  [chars! "",
   chars! "// AvatarInterestsUpdate",
   chars! "// viewer -> simulator",
   chars! "// reliable",
   chars! "{",
   chars! "\tAvatarInterestsUpdate Low 175 NotTrusted Zerocoded",
   chars! "\t{",
   chars! "\t\tAgentData\t\tSingle",
   chars! "\t\t{\tAgentID\t\t\tLLUUID\t}",
   chars! "\t\t{\tSessionID\tLLUUID\t}",
   chars! "\t}",
   chars! "\t{",
   chars! "\t\tPropertiesData\tSingle",
   chars! "\t\t{\tWantToMask\t\tU32\t\t\t\t}",
   chars! "\t\t{\tWantToText\t\tVariable\t1\t}\t// string",
   chars! "\t\t{\tSkillsMask\t\tU32\t\t\t\t}",
   chars! "\t\t{\tSkillsText\t\tVariable\t1\t}\t// string",
   chars! "\t\t{\tLanguagesText\tVariable\t1\t}\t// string\t",
   chars! "\t}",
   chars! "}"]

/-- `AvatarInterestsUpdate` as the parser creates it. -/
def r209 : RawTemplate :=
  ⟨"AvatarInterestsUpdate", .low, 175, [255, 255, 175], some .notTrusted, some .zerocoded, some .notDeprecated,
    [⟨"PropertiesData", .single, 0, [⟨"LanguagesText", some .variable, some 1⟩, ⟨"SkillsText", some .variable, some 1⟩, ⟨"SkillsMask", some .u32, some 4⟩, ⟨"WantToText", some .variable, some 1⟩, ⟨"WantToMask", some .u32, some 4⟩]⟩,
     ⟨"AgentData", .single, 0, [⟨"SessionID", some .uuid, some 16⟩, ⟨"AgentID", some .uuid, some 16⟩]⟩]⟩

/-- `AvatarInterestsUpdate` in file order. -/
def t209 : Template :=
  ⟨"AvatarInterestsUpdate", .low, 175, [], some .notTrusted, some .zerocoded, some .notDeprecated,
    [⟨"AgentData", .single, 0, [⟨"AgentID", .uuid, 16⟩, ⟨"SessionID", .uuid, 16⟩]⟩,
     ⟨"PropertiesData", .single, 0, [⟨"WantToMask", .u32, 4⟩, ⟨"WantToText", .variable, 1⟩, ⟨"SkillsMask", .u32, 4⟩, ⟨"SkillsText", .variable, 1⟩, ⟨"LanguagesText", .variable, 1⟩]⟩]⟩

theorem p209 : ChunkOk c209 r209 := by intro v older; kernel_rfl
theorem k209 : r209.known = some t209 := by kernel_rfl
theorem n209 : t209.name = String.ofList ['A', 'v', 'a', 't', 'a', 'r', 'I', 'n', 't', 'e', 'r', 'e', 's', 't', 's', 'U', 'p', 'd', 'a', 't', 'e'] := by kernel_rfl

/-- The names of the blocks and variables of `AvatarInterestsUpdate`. -/
def b209 : List (List Char × List (List Char)) :=
  [(['A', 'g', 'e', 'n', 't', 'D', 'a', 't', 'a'], [['A', 'g', 'e', 'n', 't', 'I', 'D'], ['S', 'e', 's', 's', 'i', 'o', 'n', 'I', 'D']]),
   (['P', 'r', 'o', 'p', 'e', 'r', 't', 'i', 'e', 's', 'D', 'a', 't', 'a'], [['W', 'a', 'n', 't', 'T', 'o', 'M', 'a', 's', 'k'], ['W', 'a', 'n', 't', 'T', 'o', 'T', 'e', 'x', 't'], ['S', 'k', 'i', 'l', 'l', 's', 'M', 'a', 's', 'k'], ['S', 'k', 'i', 'l', 'l', 's', 'T', 'e', 'x', 't'], ['L', 'a', 'n', 'g', 'u', 'a', 'g', 'e', 's', 'T', 'e', 'x', 't']])]

theorem w209 : Checked t209 := ⟨b209, by kernel_rfl, by kernel_rfl, by kernel_rfl⟩

/-- Lines of `message_template.msg` up to the end of `AvatarNotesReply`. -/
def c210 : List (List Char) :=
  [chars! "",
   chars! "",
   chars! "",
   chars! "// AvatarNotesReply",
   chars! "// dataserver -> simulator",
   chars! "// simulator -> viewer",
   chars! "// reliable",
   chars! "{",
   chars! "\tAvatarNotesReply Low 176 Trusted Unencoded",
   chars! "\t{",
   chars! "\t\tAgentData\t\tSingle",
   chars! "\t\t{\tAgentID\t\t\tLLUUID\t\t}",
   chars! "\t}",
   chars! "\t{",
   chars! "\t\tData\t\tSingle",
   chars! "\t\t{\tTargetID\t\tLLUUID\t\t}",
   chars! "\t\t{\tNotes\t\t\tVariable 2\t}\t// string",
   chars! "\t}",
   chars! "}"]

/-- `AvatarNotesReply` as the parser creates it. -/
def r210 : RawTemplate :=
  ⟨"AvatarNotesReply", .low, 176, [255, 255, 176], some .trusted, some .unencoded, some .notDeprecated,
    [⟨"Data", .single, 0, [⟨"Notes", some .variable, some 2⟩, ⟨"TargetID", some .uuid, some 16⟩]⟩,
     ⟨"AgentData", .single, 0, [⟨"AgentID", some .uuid, some 16⟩]⟩]⟩

/-- `AvatarNotesReply` in file order. -/
def t210 : Template :=
  ⟨"AvatarNotesReply", .low, 176, [], some .trusted, some .unencoded, some .notDeprecated,
    [⟨"AgentData", .single, 0, [⟨"AgentID", .uuid, 16⟩]⟩,
     ⟨"Data", .single, 0, [⟨"TargetID", .uuid, 16⟩, ⟨"Notes", .variable, 2⟩]⟩]⟩

theorem p210 : ChunkOk c210 r210 := by intro v older; kernel_rfl
theorem k210 : r210.known = some t210 := by kernel_rfl
theorem n210 : t210.name = String.ofList ['A', 'v', 'a', 't', 'a', 'r', 'N', 'o', 't', 'e', 's', 'R', 'e', 'p', 'l', 'y'] := by kernel_rfl

/-- The names of the blocks and variables of `AvatarNotesReply`. -/
def b210 : List (List Char × List (List Char)) :=
  [(['A', 'g', 'e', 'n', 't', 'D', 'a', 't', 'a'], [['A', 'g', 'e', 'n', 't', 'I', 'D']]),
   (['D', 'a', 't', 'a'], [['T', 'a', 'r', 'g', 'e', 't', 'I', 'D'], ['N', 'o', 't', 'e', 's']])]

theorem w210 : Checked t210 := ⟨b210, by kernel_rfl, by kernel_rfl, by kernel_rfl⟩

/-- Lines of `message_template.msg` up to the end of `AvatarNotesUpdate`. -/
def c211 : List (List Char) :=
  [chars! "",
   chars! "",
   chars! "// AvatarNotesUpdate",
   chars! "// viewer -> simulator -> dataserver",
   chars! "// reliable",
   chars! "{",
   chars! "\tAvatarNotesUpdate Low 177 NotTrusted Unencoded",
   chars! "\t{",
   chars! "\t\tAgentData\t\tSingle",
   chars! "\t\t{\tAgentID\t\t\tLLUUID\t}",
   chars! "\t\t{\tSessionID\tLLUUID\t}",
   chars! "\t}",
   chars! "\t{",
   chars! "\t\tData\t\tSingle",
   chars! "\t\t{\tTargetID\t\tLLUUID\t\t}",
   chars! "\t\t{\tNotes\t\t\tVariable 2\t}\t// string",
   chars! "\t}",
   chars! "}"]

/-- `AvatarNotesUpdate` as the parser creates it. -/
def r211 : RawTemplate :=
  ⟨"AvatarNotesUpdate", .low, 177, [255, 255, 177], some .notTrusted, some .unencoded, some .notDeprecated,
    [⟨"Data", .single, 0, [⟨"Notes", some .variable, some 2⟩, ⟨"TargetID", some .uuid, some 16⟩]⟩,
     ⟨"AgentData", .single, 0, [⟨"SessionID", some .uuid, some 16⟩, ⟨"AgentID", some .uuid, some 16⟩]⟩]⟩

/-- `AvatarNotesUpdate` in file order. -/
def t211 : Template :=
  ⟨"AvatarNotesUpdate", .low, 177, [], some .notTrusted, some .unencoded, some .notDeprecated,
    [⟨"AgentData", .single, 0, [⟨"AgentID", .uuid, 16⟩, ⟨"SessionID", .uuid, 16⟩]⟩,
     ⟨"Data", .single, 0, [⟨"TargetID", .uuid, 16⟩, ⟨"Notes", .variable, 2⟩]⟩]⟩

theorem p211 : ChunkOk c211 r211 := by intro v older; kernel_rfl
theorem k211 : r211.known = some t211 := by kernel_rfl
theorem n211 : t211.name = String.ofList ['A', 'v', 'a', 't', 'a', 'r', 'N', 'o', 't', 'e', 's', 'U', 'p', 'd', 'a', 't', 'e'] := by kernel_rfl

/-- The names of the blocks and variables of `AvatarNotesUpdate`. -/
def b211 : List (List Char × List (List Char)) :=
  [(['A', 'g', 'e', 'n', 't', 'D', 'a', 't', 'a'], [['A', 'g', 'e', 'n', 't', 'I', 'D'], ['S', 'e', 's', 's', 'i', 'o', 'n', 'I', 'D']]),
   (['D', 'a', 't', 'a'], [['T', 'a', 'r', 'g', 'e', 't', 'I', 'D'], ['N', 'o', 't', 'e', 's']])]

theorem w211 : Checked t211 := ⟨b211, by kernel_rfl, by kernel_rfl, by kernel_rfl⟩

/-- Lines of `message_template.msg` up to the end of `AvatarPicksReply`. -/
def c212 : List (List Char) :=
  [chars! "",
   chars! "",
   chars! "// AvatarPicksReply",
   chars! "// dataserver -> simulator -> viewer",
   chars! "// Send the header information for this avatar's picks",
   chars! "// This fills in the tabs of the Picks panel.",
   chars! "// reliable",
   chars! "{",
   chars! "\tAvatarPicksReply Low 178 Trusted Unencoded",
   chars! "\t{",
   chars! "\t\tAgentData\t\tSingle",
   chars! "\t\t{\tAgentID\t\t\tLLUUID\t\t}",
   chars! "\t\t{\tTargetID\t\tLLUUID\t\t}",
   chars! "\t}",
   chars! "\t{",
   chars! "\t\tData\t\t\tVariable",
   chars! "\t\t{\tPickID\t\t\tLLUUID\t\t}",
   chars! "\t\t{\tPickName\t\tVariable 1\t}\t// string",
   chars! "\t}",
   chars! "}"]

/-- `AvatarPicksReply` as the parser creates it. -/
def r212 : RawTemplate :=
  ⟨"AvatarPicksReply", .low, 178, [255, 255, 178], some .trusted, some .unencoded, some .notDeprecated,
    [⟨"Data", .variable, 0, [⟨"PickName", some .variable, some 1⟩, ⟨"PickID", some .uuid, some 16⟩]⟩,
     ⟨"AgentData", .single, 0, [⟨"TargetID", some .uuid, some 16⟩, ⟨"AgentID", some .uuid, some 16⟩]⟩]⟩

/-- `AvatarPicksReply` in file order. -/
def t212 : Template :=
  ⟨"AvatarPicksReply", .low, 178, [], some .trusted, some .unencoded, some .notDeprecated,
    [⟨"AgentData", .single, 0, [⟨"AgentID", .uuid, 16⟩, ⟨"TargetID", .uuid, 16⟩]⟩,
     ⟨"Data", .variable, 0, [⟨"PickID", .uuid, 16⟩, ⟨"PickName", .variable, 1⟩]⟩]⟩

theorem p212 : ChunkOk c212 r212 := by intro v older; kernel_rfl
theorem k212 : r212.known = some t212 := by kernel_rfl
theorem n212 : t212.name = String.ofList ['A', 'v', 'a', 't', 'a', 'r', 'P', 'i', 'c', 'k', 's', 'R', 'e', 'p', 'l', 'y'] := by kernel_rfl

/-- The names of the blocks and variables of `AvatarPicksReply`. -/
def b212 : List (List Char × List (List Char)) :=
  [(['A', 'g', 'e', 'n', 't', 'D', 'a', 't', 'a'], [['A', 'g', 'e', 'n', 't', 'I', 'D'], ['T', 'a', 'r', 'g', 'e', 't', 'I', 'D']]),
   (['D', 'a', 't', 'a'], [['P', 'i', 'c', 'k', 'I', 'D'], ['P', 'i', 'c', 'k', 'N', 'a', 'm', 'e']])]

theorem w212 : Checked t212 := ⟨b212, by kernel_rfl, by kernel_rfl, by kernel_rfl⟩

/-- Lines of `message_template.msg` up to the end of `EventInfoRequest`. -/
def c213 : List (List Char) :=
  [chars! "",
   chars! "",
   chars! "// EventInfoRequest",
   chars! "// viewer -> simulator",
   chars! "// simulator -> dataserver",
   chars! "// reliable",
   chars! "{",
   chars! "\tEventInfoRequest Low 179 NotTrusted Unencoded",
   chars! "\t{",
   chars! "\t\tAgentData\t\tSingle",
   chars! "\t\t{\tAgentID\t\t\tLLUUID\t}",
   chars! "\t\t{\tSessionID\tLLUUID\t}",
   chars! "\t}",
   chars! "\t{",
   chars! "\t\tEventData\t\tSingle",
   chars! "\t\t{\tEventID\t\tU32\t}",
   chars! "\t}",
   chars! "}"]

/-- `EventInfoRequest` as the parser creates it. -/
def r213 : RawTemplate :=
  ⟨"EventInfoRequest", .low, 179, [255, 255, 179], some .notTrusted, some .unencoded, some .notDeprecated,
    [⟨"EventData", .single, 0, [⟨"EventID", some .u32, some 4⟩]⟩,
     ⟨"AgentData", .single, 0, [⟨"SessionID", some .uuid, some 16⟩, ⟨"AgentID", some .uuid, some 16⟩]⟩]⟩

/-- `EventInfoRequest` in file order. -/
def t213 : Template :=
  ⟨"EventInfoRequest", .low, 179, [], some .notTrusted, some .unencoded, some .notDeprecated,
    [⟨"AgentData", .single, 0, [⟨"AgentID", .uuid, 16⟩, ⟨"SessionID", .uuid, 16⟩]⟩,
     ⟨"EventData", .single, 0, [⟨"EventID", .u32, 4⟩]⟩]⟩

theorem p213 : ChunkOk c213 r213 := by intro v older; kernel_rfl
theorem k213 : r213.known = some t213 := by kernel_rfl
theorem n213 : t213.name = String.ofList ['E', 'v', 'e', 'n', 't', 'I', 'n', 'f', 'o', 'R', 'e', 'q', 'u', 'e', 's', 't'] := by kernel_rfl

/-- The names of the blocks and variables of `EventInfoRequest`. -/
def b213 : List (List Char × List (List Char)) :=
  [(['A', 'g', 'e', 'n', 't', 'D', 'a', 't', 'a'], [['A', 'g', 'e', 'n', 't', 'I', 'D'], ['S', 'e', 's', 's', 'i', 'o', 'n', 'I', 'D']]),
   (['E', 'v', 'e', 'n', 't', 'D', 'a', 't', 'a'], [['E', 'v', 'e', 'n', 't', 'I', 'D']])]

theorem w213 : Checked t213 := ⟨b213, by kernel_rfl, by kernel_rfl, by kernel_rfl⟩

/-- Lines of `message_template.msg` up to the end of `EventInfoReply`. -/
def c214 : List (List Char) :=
  [chars! "",
   chars! "",
   chars! "// EventInfoReply",
   chars! "// dataserver -> simulator",
   chars! "// simulator -> viewer",
   chars! "// reliable",
   chars! "{",
   chars! "\tEventInfoReply Low 180 Trusted Unencoded",
   chars! "\t{",
   chars! "\t\tAgentData\t\tSingle",
   chars! "\t\t{\tAgentID\t\tLLUUID\t}",
   chars! "\t}",
   chars! "\t{",
   chars! "\t\tEventData\t\tSingle",
   chars! "\t\t{\tEventID\t\tU32\t\t\t\t}",
   chars! "\t\t{\tCreator\t\tVariable\t1\t}",
   chars! "\t\t{\tName\t\tVariable\t1\t}",
   chars! "\t\t{\tCategory\tVariable\t1\t}",
   chars! "\t\t{\tDesc\t\tVariable\t2\t}",
   chars! "\t\t{\tDate\t\tVariable\t1\t}",
   chars! "\t\t{\tDateUTC\t\tU32\t\t\t\t}",
   chars! "\t\t{\tDuration\tU32\t\t\t\t}",
   chars! "\t\t{\tCover\t\tU32\t\t\t\t}",
   chars! "\t\t{\tAmount\t\tU32\t\t\t\t}",
   chars! "\t\t{\tSimName\t\tVariable\t1\t}",
   chars! "\t\t{\tGlobalPos\tLLVector3d\t\t}",
   chars! "\t\t{\tEventFlags\tU32\t\t\t\t}",
   chars! "\t}",
   chars! "}"]

/-- `EventInfoReply` as the parser creates it. -/
def r214 : RawTemplate :=
  ⟨"EventInfoReply", .low, 180, [255, 255, 180], some .trusted, some .unencoded, some .notDeprecated,
    [⟨"EventData", .single, 0, [⟨"EventFlags", some .u32, some 4⟩, ⟨"GlobalPos", some .vector3d, some 24⟩, ⟨"SimName", some .variable, some 1⟩, ⟨"Amount", some .u32, some 4⟩, ⟨"Cover", some .u32, some 4⟩, ⟨"Duration", some .u32, some 4⟩, ⟨"DateUTC", some .u32, some 4⟩, ⟨"Date", some .variable, some 1⟩, ⟨"Desc", some .variable, some 2⟩, ⟨"Category", some .variable, some 1⟩, ⟨"Name", some .variable, some 1⟩, ⟨"Creator", some .variable, some 1⟩, ⟨"EventID", some .u32, some 4⟩]⟩,
     ⟨"AgentData", .single, 0, [⟨"AgentID", some .uuid, some 16⟩]⟩]⟩

/-- `EventInfoReply` in file order. -/
def t214 : Template :=
  ⟨"EventInfoReply", .low, 180, [], some .trusted, some .unencoded, some .notDeprecated,
    [⟨"AgentData", .single, 0, [⟨"AgentID", .uuid, 16⟩]⟩,
     ⟨"EventData", .single, 0, [⟨"EventID", .u32, 4⟩, ⟨"Creator", .variable, 1⟩, ⟨"Name", .variable, 1⟩, ⟨"Category", .variable, 1⟩, ⟨"Desc", .variable, 2⟩, ⟨"Date", .variable, 1⟩, ⟨"DateUTC", .u32, 4⟩, ⟨"Duration", .u32, 4⟩, ⟨"Cover", .u32, 4⟩, ⟨"Amount", .u32, 4⟩, ⟨"SimName", .variable, 1⟩, ⟨"GlobalPos", .vector3d, 24⟩, ⟨"EventFlags", .u32, 4⟩]⟩]⟩

theorem p214 : ChunkOk c214 r214 := by intro v older; kernel_rfl
theorem k214 : r214.known = some t214 := by kernel_rfl
theorem n214 : t214.name = String.ofList ['E', 'v', 'e', 'n', 't', 'I', 'n', 'f', 'o', 'R', 'e', 'p', 'l', 'y'] := by kernel_rfl

/-- The names of the blocks and variables of `EventInfoReply`. -/
def b214 : List (List Char × List (List Char)) :=
  [(['A', 'g', 'e', 'n', 't', 'D', 'a', 't', 'a'], [['A', 'g', 'e', 'n', 't', 'I', 'D']]),
   (['E', 'v', 'e', 'n', 't', 'D', 'a', 't', 'a'], [['E', 'v', 'e', 'n', 't', 'I', 'D'], ['C', 'r', 'e', 'a', 't', 'o', 'r'], ['N', 'a', 'm', 'e'], ['C', 'a', 't', 'e', 'g', 'o', 'r', 'y'], ['D', 'e', 's', 'c'], ['D', 'a', 't', 'e'], ['D', 'a', 't', 'e', 'U', 'T', 'C'], ['D', 'u', 'r', 'a', 't', 'i', 'o', 'n'], ['C', 'o', 'v', 'e', 'r'], ['A', 'm', 'o', 'u', 'n', 't'], ['S', 'i', 'm', 'N', 'a', 'm', 'e'], ['G', 'l', 'o', 'b', 'a', 'l', 'P', 'o', 's'], ['E', 'v', 'e', 'n', 't', 'F', 'l', 'a', 'g', 's']])]

theorem w214 : Checked t214 := ⟨b214, by kernel_rfl, by kernel_rfl, by kernel_rfl⟩

/-- Lines of `message_template.msg` up to the end of `EventNotificationAddRequest`. -/
def c215 : List (List Char) :=
  [chars! "",
   chars! "",
   chars! "// EventNotificationAddRequest",
   chars! "// viewer -> simulator",
   chars! "// simulator -> dataserver",
   chars! "// reliable",
   chars! "{",
   chars! "\tEventNotificationAddRequest Low 181 NotTrusted Unencoded",
   chars! "\t{",
   chars! "\t\tAgentData\t\tSingle",
   chars! "\t\t{\tAgentID\t\tLLUUID\t}",
   chars! "\t\t{\tSessionID\tLLUUID\t}",
   chars! "\t}",
   chars! "\t{",
   chars! "\t\tEventData\t\tSingle",
   chars! "\t\t{\tEventID\t\tU32\t\t}",
   chars! "\t}",
   chars! "}"]

/-- `EventNotificationAddRequest` as the parser creates it. -/
def r215 : RawTemplate :=
  ⟨"EventNotificationAddRequest", .low, 181, [255, 255, 181], some .notTrusted, some .unencoded, some .notDeprecated,
    [⟨"EventData", .single, 0, [⟨"EventID", some .u32, some 4⟩]⟩,
     ⟨"AgentData", .single, 0, [⟨"SessionID", some .uuid, some 16⟩, ⟨"AgentID", some .uuid, some 16⟩]⟩]⟩

/-- `EventNotificationAddRequest` in file order. -/
def t215 : Template :=
  ⟨"EventNotificationAddRequest", .low, 181, [], some .notTrusted, some .unencoded, some .notDeprecated,
    [⟨"AgentData", .single, 0, [⟨"AgentID", .uuid, 16⟩, ⟨"SessionID", .uuid, 16⟩]⟩,
     ⟨"EventData", .single, 0, [⟨"EventID", .u32, 4⟩]⟩]⟩

theorem p215 : ChunkOk c215 r215 := by intro v older; kernel_rfl
theorem k215 : r215.known = some t215 := by kernel_rfl
theorem n215 : t215.name = String.ofList ['E', 'v', 'e', 'n', 't', 'N', 'o', 't', 'i', 'f', 'i', 'c', 'a', 't', 'i', 'o', 'n', 'A', 'd', 'd', 'R', 'e', 'q', 'u', 'e', 's', 't'] := by kernel_rfl

/-- The names of the blocks and variables of `EventNotificationAddRequest`. -/
def b215 : List (List Char × List (List Char)) :=
  [(['A', 'g', 'e', 'n', 't', 'D', 'a', 't', 'a'], [['A', 'g', 'e', 'n', 't', 'I', 'D'], ['S', 'e', 's', 's', 'i', 'o', 'n', 'I', 'D']]),
   (['E', 'v', 'e', 'n', 't', 'D', 'a', 't', 'a'], [['E', 'v', 'e', 'n', 't', 'I', 'D']])]

theorem w215 : Checked t215 := ⟨b215, by kernel_rfl, by kernel_rfl, by kernel_rfl⟩

/-- Lines of `message_template.msg` up to the end of `EventNotificationRemoveRequest`. -/
def c216 : List (List Char) :=
  [chars! "",
   chars! "",
   chars! "// EventNotificationRemoveRequest",
   chars! "// viewer -> simulator",
   chars! "// simulator -> dataserver",
   chars! "// reliable",
   chars! "{",
   chars! "\tEventNotificationRemoveRequest Low 182 NotTrusted Unencoded",
   chars! "\t{",
   chars! "\t\tAgentData\t\tSingle",
   chars! "\t\t{\tAgentID\t\tLLUUID\t}",
   chars! "\t\t{\tSessionID\tLLUUID\t}",
   chars! "\t}",
   chars! "\t{",
   chars! "\t\tEventData\t\tSingle",
   chars! "\t\t{\tEventID\t\tU32\t\t}",
   chars! "\t}",
   chars! "}"]

/-- `EventNotificationRemoveRequest` as the parser creates it. -/
def r216 : RawTemplate :=
  ⟨"EventNotificationRemoveRequest", .low, 182, [255, 255, 182], some .notTrusted, some .unencoded, some .notDeprecated,
    [⟨"EventData", .single, 0, [⟨"EventID", some .u32, some 4⟩]⟩,
     ⟨"AgentData", .single, 0, [⟨"SessionID", some .uuid, some 16⟩, ⟨"AgentID", some .uuid, some 16⟩]⟩]⟩

/-- `EventNotificationRemoveRequest` in file order. -/
def t216 : Template :=
  ⟨"EventNotificationRemoveRequest", .low, 182, [], some .notTrusted, some .unencoded, some .notDeprecated,
    [⟨"AgentData", .single, 0, [⟨"AgentID", .uuid, 16⟩, ⟨"SessionID", .uuid, 16⟩]⟩,
     ⟨"EventData", .single, 0, [⟨"EventID", .u32, 4⟩]⟩]⟩

theorem p216 : ChunkOk c216 r216 := by intro v older; kernel_rfl
theorem k216 : r216.known = some t216 := by kernel_rfl
theorem n216 : t216.name = String.ofList ['E', 'v', 'e', 'n', 't', 'N', 'o', 't', 'i', 'f', 'i', 'c', 'a', 't', 'i', 'o', 'n', 'R', 'e', 'm', 'o', 'v', 'e', 'R', 'e', 'q', 'u', 'e', 's', 't'] := by kernel_rfl

/-- The names of the blocks and variables of `EventNotificationRemoveRequest`. -/
def b216 : List (List Char × List (List Char)) :=
  [(['A', 'g', 'e', 'n', 't', 'D', 'a', 't', 'a'], [['A', 'g', 'e', 'n', 't', 'I', 'D'], ['S', 'e', 's', 's', 'i', 'o', 'n', 'I', 'D']]),
   (['E', 'v', 'e', 'n', 't', 'D', 'a', 't', 'a'], [['E', 'v', 'e', 'n', 't', 'I', 'D']])]

theorem w216 : Checked t216 := ⟨b216, by kernel_rfl, by kernel_rfl, by kernel_rfl⟩

/-- Lines of `message_template.msg` up to the end of `EventGodDelete`. -/
def c217 : List (List Char) :=
  [chars! "",
   chars! "// EventGodDelete",
   chars! "// viewer -> simulator",
   chars! "// simulator -> dataserver",
   chars! "// QueryData is used to resend a search result after the deletion",
   chars! "// reliable",
   chars! "{",
   chars! "\tEventGodDelete Low 183 NotTrusted Unencoded",
   chars! "\t{",
   chars! "\t\tAgentData\t\tSingle",
   chars! "\t\t{\tAgentID\t\t\tLLUUID\t}",
   chars! "\t\t{\tSessionID\t\tLLUUID\t}",
   chars! "\t}",
   chars! "\t{",
   chars! "\t\tEventData\t\tSingle",
   chars! "\t\t{\tEventID\t\t\tU32\t\t}",
   chars! "\t}",
   chars! "\t{",
   chars! "\t\tQueryData\t\tSingle",
   chars! "\t\t{\tQueryID\t\tLLUUID\t\t}",
   chars! "\t\t{\tQueryText\tVariable 1\t}",
   chars! "\t\t{\tQueryFlags\tU32\t\t\t}",
   chars! "\t\t{\tQueryStart\tS32\t\t\t}\t// prev/next page support",
   chars! "\t}",
   chars! "}"]

/-- `EventGodDelete` as the parser creates it. -/
def r217 : RawTemplate :=
  ⟨"EventGodDelete", .low, 183, [255, 255, 183], some .notTrusted, some .unencoded, some .notDeprecated,
    [⟨"QueryData", .single, 0, [⟨"QueryStart", some .s32, some 4⟩, ⟨"QueryFlags", some .u32, some 4⟩, ⟨"QueryText", some .variable, some 1⟩, ⟨"QueryID", some .uuid, some 16⟩]⟩,
     ⟨"EventData", .single, 0, [⟨"EventID", some .u32, some 4⟩]⟩,
     ⟨"AgentData", .single, 0, [⟨"SessionID", some .uuid, some 16⟩, ⟨"AgentID", some .uuid, some 16⟩]⟩]⟩

/-- `EventGodDelete` in file order. -/
def t217 : Template :=
  ⟨"EventGodDelete", .low, 183, [], some .notTrusted, some .unencoded, some .notDeprecated,
    [⟨"AgentData", .single, 0, [⟨"AgentID", .uuid, 16⟩, ⟨"SessionID", .uuid, 16⟩]⟩,
     ⟨"EventData", .single, 0, [⟨"EventID", .u32, 4⟩]⟩,
     ⟨"QueryData", .single, 0, [⟨"QueryID", .uuid, 16⟩, ⟨"QueryText", .variable, 1⟩, ⟨"QueryFlags", .u32, 4⟩, ⟨"QueryStart", .s32, 4⟩]⟩]⟩

theorem p217 : ChunkOk c217 r217 := by intro v older; kernel_rfl
theorem k217 : r217.known = some t217 := by kernel_rfl
theorem n217 : t217.name = String.ofList ['E', 'v', 'e', 'n', 't', 'G', 'o', 'd', 'D', 'e', 'l', 'e', 't', 'e'] := by kernel_rfl

/-- The names of the blocks and variables of `EventGodDelete`. -/
def b217 : List (List Char × List (List Char)) :=
  [(['A', 'g', 'e', 'n', 't', 'D', 'a', 't', 'a'], [['A', 'g', 'e', 'n', 't', 'I', 'D'], ['S', 'e', 's', 's', 'i', 'o', 'n', 'I', 'D']]),
   (['E', 'v', 'e', 'n', 't', 'D', 'a', 't', 'a'], [['E', 'v', 'e', 'n', 't', 'I', 'D']]),
   (['Q', 'u', 'e', 'r', 'y', 'D', 'a', 't', 'a'], [['Q', 'u', 'e', 'r', 'y', 'I', 'D'], ['Q', 'u', 'e', 'r', 'y', 'T', 'e', 'x', 't'], ['Q', 'u', 'e', 'r', 'y', 'F', 'l', 'a', 'g', 's'], ['Q', 'u', 'e', 'r', 'y', 'S', 't', 'a', 'r', 't']])]

theorem w217 : Checked t217 := ⟨b217, by kernel_rfl, by kernel_rfl, by kernel_rfl⟩

/-- Lines of `message_template.msg` up to the end of `PickInfoReply`. -/
def c218 : List (List Char) :=
  [chars! "",
   chars! "",
   chars! "// PickInfoReply",
   chars! "// dataserver -> simulator",
   chars! "// simulator -> viewer",
   chars! "// reliable",
   chars! "{",
   chars! "\tPickInfoReply Low 184 Trusted Unencoded",
   chars! "    {",
   chars! "        AgentData    Single",
   chars! "        {    AgentID        LLUUID    }",
   chars! "    }",
   chars! "    {",
   chars! "\t\tData        Single",
   chars! "\t\t{\tPickID\t\t\tLLUUID\t\t}",
   chars! "\t\t{\tCreatorID\t\tLLUUID\t\t}",
   chars! "\t\t{\tTopPick\t\t\tBOOL\t\t}",
   chars! "\t\t{\tParcelID\t\tLLUUID\t\t}",
   chars! "\t\t{\tName\t\t\tVariable 1\t}",
   chars! "        {\tDesc\t\t\tVariable 2\t}",
   chars! "        {\tSnapshotID\t\tLLUUID\t\t}",
   chars! "        {\tUser\t\t\tVariable 1\t}",
   chars! "        {\tOriginalName\tVariable 1\t}",
   chars! "        {\tSimName\t\t\tVariable 1\t}",
   chars! "        {\tPosGlobal\t\tLLVector3d\t}",
   chars! "        {\tSortOrder\t\tS32\t\t\t}",
   chars! "        {\tEnabled\t\t\tBOOL\t\t}",
   chars! "    }",
   chars! "}"]

/-- `PickInfoReply` as the parser creates it. -/
def r218 : RawTemplate :=
  ⟨"PickInfoReply", .low, 184, [255, 255, 184], some .trusted, some .unencoded, some .notDeprecated,
    [⟨"Data", .single, 0, [⟨"Enabled", some .bool, some 1⟩, ⟨"SortOrder", some .s32, some 4⟩, ⟨"PosGlobal", some .vector3d, some 24⟩, ⟨"SimName", some .variable, some 1⟩, ⟨"OriginalName", some .variable, some 1⟩, ⟨"User", some .variable, some 1⟩, ⟨"SnapshotID", some .uuid, some 16⟩, ⟨"Desc", some .variable, some 2⟩, ⟨"Name", some .variable, some 1⟩, ⟨"ParcelID", some .uuid, some 16⟩, ⟨"TopPick", some .bool, some 1⟩, ⟨"CreatorID", some .uuid, some 16⟩, ⟨"PickID", some .uuid, some 16⟩]⟩,
     ⟨"AgentData", .single, 0, [⟨"AgentID", some .uuid, some 16⟩]⟩]⟩

/-- `PickInfoReply` in file order. -/
def t218 : Template :=
  ⟨"PickInfoReply", .low, 184, [], some .trusted, some .unencoded, some .notDeprecated,
    [⟨"AgentData", .single, 0, [⟨"AgentID", .uuid, 16⟩]⟩,
     ⟨"Data", .single, 0, [⟨"PickID", .uuid, 16⟩, ⟨"CreatorID", .uuid, 16⟩, ⟨"TopPick", .bool, 1⟩, ⟨"ParcelID", .uuid, 16⟩, ⟨"Name", .variable, 1⟩, ⟨"Desc", .variable, 2⟩, ⟨"SnapshotID", .uuid, 16⟩, ⟨"User", .variable, 1⟩, ⟨"OriginalName", .variable, 1⟩, ⟨"SimName", .variable, 1⟩, ⟨"PosGlobal", .vector3d, 24⟩, ⟨"SortOrder", .s32, 4⟩, ⟨"Enabled", .bool, 1⟩]⟩]⟩

theorem p218 : ChunkOk c218 r218 := by intro v older; kernel_rfl
theorem k218 : r218.known = some t218 := by kernel_rfl
theorem n218 : t218.name = String.ofList ['P', 'i', 'c', 'k', 'I', 'n', 'f', 'o', 'R', 'e', 'p', 'l', 'y'] := by kernel_rfl

/-- The names of the blocks and variables of `PickInfoReply`. -/
def b218 : List (List Char × List (List Char)) :=
  [(['A', 'g', 'e', 'n', 't', 'D', 'a', 't', 'a'], [['A', 'g', 'e', 'n', 't', 'I', 'D']]),
   (['D', 'a', 't', 'a'], [['P', 'i', 'c', 'k', 'I', 'D'], ['C', 'r', 'e', 'a', 't', 'o', 'r', 'I', 'D'], ['T', 'o', 'p', 'P', 'i', 'c', 'k'], ['P', 'a', 'r', 'c', 'e', 'l', 'I', 'D'], ['N', 'a', 'm', 'e'], ['D', 'e', 's', 'c'], ['S', 'n', 'a', 'p', 's', 'h', 'o', 't', 'I', 'D'], ['U', 's', 'e', 'r'], ['O', 'r', 'i', 'g', 'i', 'n', 'a', 'l', 'N', 'a', 'm', 'e'], ['S', 'i', 'm', 'N', 'a', 'm', 'e'], ['P', 'o', 's', 'G', 'l', 'o', 'b', 'a', 'l'], ['S', 'o', 'r', 't', 'O', 'r', 'd', 'e', 'r'], ['E', 'n', 'a', 'b', 'l', 'e', 'd']])]

theorem w218 : Checked t218 := ⟨b218, by kernel_rfl, by kernel_rfl, by kernel_rfl⟩

/-- Lines of `message_template.msg` up to the end of `PickInfoUpdate`. -/
def c219 : List (List Char) :=
  [chars! "",
   chars! "",
   chars! "// PickInfoUpdate",
   chars! "// Update a pick.  ParcelID is set on the simulator as the message",
   chars! "// passes through.",
   chars! "// If TopPick is TRUE, the simulator will only pass on the message",
   chars! "// if the agent_id is a god.",
   chars! "// viewer -> simulator -> dataserver",
   chars! "// reliable",
   chars! "{",
   chars! "\tPickInfoUpdate Low 185 NotTrusted Unencoded",
   chars! "\t{",
   chars! "\t\tAgentData\tSingle",
   chars! "\t\t{\tAgentID\t\t\tLLUUID\t\t}",
   chars! "\t\t{\tSessionID\t\tLLUUID\t\t}",
   chars! "\t}",
   chars! "\t{",
   chars! "\t\tData\t\tSingle",
   chars! "\t\t{\tPickID\t\t\tLLUUID\t\t}",
   chars! "\t\t{\tCreatorID\t\tLLUUID\t\t}",
   chars! "\t\t{\tTopPick\t\t\tBOOL\t\t}",
   chars! "\t\t{\tParcelID\t\tLLUUID\t\t}",
   chars! "\t\t{\tName\t\t\tVariable 1\t}",
   chars! "\t\t{\tDesc\t\t\tVariable 2\t}",
   chars! "\t\t{\tSnapshotID\t\tLLUUID\t\t}",
   chars! "\t\t{\tPosGlobal\t\tLLVector3d\t}",
   chars! "        {\tSortOrder\t\tS32\t\t\t}",
   chars! "        {\tEnabled\t\t\tBOOL\t\t}",
   chars! "\t}",
   chars! "}"]

/-- `PickInfoUpdate` as the parser creates it. -/
def r219 : RawTemplate :=
  ⟨"PickInfoUpdate", .low, 185, [255, 255, 185], some .notTrusted, some .unencoded, some .notDeprecated,
    [⟨"Data", .single, 0, [⟨"Enabled", some .bool, some 1⟩, ⟨"SortOrder", some .s32, some 4⟩, ⟨"PosGlobal", some .vector3d, some 24⟩, ⟨"SnapshotID", some .uuid, some 16⟩, ⟨"Desc", some .variable, some 2⟩, ⟨"Name", some .variable, some 1⟩, ⟨"ParcelID", some .uuid, some 16⟩, ⟨"TopPick", some .bool, some 1⟩, ⟨"CreatorID", some .uuid, some 16⟩, ⟨"PickID", some .uuid, some 16⟩]⟩,
     ⟨"AgentData", .single, 0, [⟨"SessionID", some .uuid, some 16⟩, ⟨"AgentID", some .uuid, some 16⟩]⟩]⟩

/-- `PickInfoUpdate` in file order. -/
def t219 : Template :=
  ⟨"PickInfoUpdate", .low, 185, [], some .notTrusted, some .unencoded, some .notDeprecated,
    [⟨"AgentData", .single, 0, [⟨"AgentID", .uuid, 16⟩, ⟨"SessionID", .uuid, 16⟩]⟩,
     ⟨"Data", .single, 0, [⟨"PickID", .uuid, 16⟩, ⟨"CreatorID", .uuid, 16⟩, ⟨"TopPick", .bool, 1⟩, ⟨"ParcelID", .uuid, 16⟩, ⟨"Name", .variable, 1⟩, ⟨"Desc", .variable, 2⟩, ⟨"SnapshotID", .uuid, 16⟩, ⟨"PosGlobal", .vector3d, 24⟩, ⟨"SortOrder", .s32, 4⟩, ⟨"Enabled", .bool, 1⟩]⟩]⟩

theorem p219 : ChunkOk c219 r219 := by intro v older; kernel_rfl
theorem k219 : r219.known = some t219 := by kernel_rfl
theorem n219 : t219.name = String.ofList ['P', 'i', 'c', 'k', 'I', 'n', 'f', 'o', 'U', 'p', 'd', 'a', 't', 'e'] := by kernel_rfl

/-- The names of the blocks and variables of `PickInfoUpdate`. -/
def b219 : List (List Char × List (List Char)) :=
  [(['A', 'g', 'e', 'n', 't', 'D', 'a', 't', 'a'], [['A', 'g', 'e', 'n', 't', 'I', 'D'], ['S', 'e', 's', 's', 'i', 'o', 'n', 'I', 'D']]),
   (['D', 'a', 't', 'a'], [['P', 'i', 'c', 'k', 'I', 'D'], ['C', 'r', 'e', 'a', 't', 'o', 'r', 'I', 'D'], ['T', 'o', 'p', 'P', 'i', 'c', 'k'], ['P', 'a', 'r', 'c', 'e', 'l', 'I', 'D'], ['N', 'a', 'm', 'e'], ['D', 'e', 's', 'c'], ['S', 'n', 'a', 'p', 's', 'h', 'o', 't', 'I', 'D'], ['P', 'o', 's', 'G', 'l', 'o', 'b', 'a', 'l'], ['S', 'o', 'r', 't', 'O', 'r', 'd', 'e', 'r'], ['E', 'n', 'a', 'b', 'l', 'e', 'd']])]

theorem w219 : Checked t219 := ⟨b219, by kernel_rfl, by kernel_rfl, by kernel_rfl⟩

/-- Lines of `message_template.msg` up to the end of `PickDelete`. -/
def c220 : List (List Char) :=
  [chars! "",
   chars! "",
   chars! "// PickDelete",
   chars! "// Delete a non-top pick from the database.",
   chars! "// viewer -> simulator -> dataserver",
   chars! "// reliable",
   chars! "{",
   chars! "\tPickDelete Low 186 NotTrusted Unencoded",
   chars! "\t{",
   chars! "\t\tAgentData\tSingle",
   chars! "\t\t{\tAgentID\t\t\tLLUUID\t\t}",
   chars! "\t\t{\tSessionID\t\tLLUUID\t\t}",
   chars! "\t}",
   chars! "\t{",
   chars! "\t\tData\tSingle",
   chars! "\t\t{\tPickID\t\t\tLLUUID\t\t}",
   chars! "\t}",
   chars! "}"]

/-- `PickDelete` as the parser creates it. -/
def r220 : RawTemplate :=
  ⟨"PickDelete", .low, 186, [255, 255, 186], some .notTrusted, some .unencoded, some .notDeprecated,
    [⟨"Data", .single, 0, [⟨"PickID", some .uuid, some 16⟩]⟩,
     ⟨"AgentData", .single, 0, [⟨"SessionID", some .uuid, some 16⟩, ⟨"AgentID", some .uuid, some 16⟩]⟩]⟩

/-- `PickDelete` in file order. -/
def t220 : Template :=
  ⟨"PickDelete", .low, 186, [], some .notTrusted, some .unencoded, some .notDeprecated,
    [⟨"AgentData", .single, 0, [⟨"AgentID", .uuid, 16⟩, ⟨"SessionID", .uuid, 16⟩]⟩,
     ⟨"Data", .single, 0, [⟨"PickID", .uuid, 16⟩]⟩]⟩

theorem p220 : ChunkOk c220 r220 := by intro v older; kernel_rfl
theorem k220 : r220.known = some t220 := by kernel_rfl
theorem n220 : t220.name = String.ofList ['P', 'i', 'c', 'k', 'D', 'e', 'l', 'e', 't', 'e'] := by kernel_rfl

/-- The names of the blocks and variables of `PickDelete`. -/
def b220 : List (List Char × List (List Char)) :=
  [(['A', 'g', 'e', 'n', 't', 'D', 'a', 't', 'a'], [['A', 'g', 'e', 'n', 't', 'I', 'D'], ['S', 'e', 's', 's', 'i', 'o', 'n', 'I', 'D']]),
   (['D', 'a', 't', 'a'], [['P', 'i', 'c', 'k', 'I', 'D']])]

theorem w220 : Checked t220 := ⟨b220, by kernel_rfl, by kernel_rfl, by kernel_rfl⟩

/-- Lines of `message_template.msg` up to the end of `PickGodDelete`. -/
def c221 : List (List Char) :=
  [chars! "",
   chars! "// PickGodDelete",
   chars! "// Delete a pick from the database.",
   chars! "// QueryID is needed so database can send a repeat list of ",
   chars! "// picks.",
   chars! "// viewer -> simulator -> dataserver",
   chars! "// reliable",
   chars! "{",
   chars! "\tPickGodDelete Low 187 NotTrusted Unencoded",
   chars! "\t{",
   chars! "\t\tAgentData\tSingle",
   chars! "\t\t{\tAgentID\t\t\tLLUUID\t\t}",
   chars! "\t\t{\tSessionID\t\tLLUUID\t\t}",
   chars! "\t}",
   chars! "\t{",
   chars! "\t\tData\tSingle",
   chars! "\t\t{\tPickID\t\t\tLLUUID\t\t}",
   chars! "\t\t{\tQueryID\t\t\tLLUUID\t\t}",
   chars! "\t}",
   chars! "}"]

/-- `PickGodDelete` as the parser creates it. -/
def r221 : RawTemplate :=
  ⟨"PickGodDelete", .low, 187, [255, 255, 187], some .notTrusted, some .unencoded, some .notDeprecated,
    [⟨"Data", .single, 0, [⟨"QueryID", some .uuid, some 16⟩, ⟨"PickID", some .uuid, some 16⟩]⟩,
     ⟨"AgentData", .single, 0, [⟨"SessionID", some .uuid, some 16⟩, ⟨"AgentID", some .uuid, some 16⟩]⟩]⟩

/-- `PickGodDelete` in file order. -/
def t221 : Template :=
  ⟨"PickGodDelete", .low, 187, [], some .notTrusted, some .unencoded, some .notDeprecated,
    [⟨"AgentData", .single, 0, [⟨"AgentID", .uuid, 16⟩, ⟨"SessionID", .uuid, 16⟩]⟩,
     ⟨"Data", .single, 0, [⟨"PickID", .uuid, 16⟩, ⟨"QueryID", .uuid, 16⟩]⟩]⟩

theorem p221 : ChunkOk c221 r221 := by intro v older; kernel_rfl
theorem k221 : r221.known = some t221 := by kernel_rfl
theorem n221 : t221.name = String.ofList ['P', 'i', 'c', 'k', 'G', 'o', 'd', 'D', 'e', 'l', 'e', 't', 'e'] := by kernel_rfl

/-- The names of the blocks and variables of `PickGodDelete`. -/
def b221 : List (List Char × List (List Char)) :=
  [(['A', 'g', 'e', 'n', 't', 'D', 'a', 't', 'a'], [['A', 'g', 'e', 'n', 't', 'I', 'D'], ['S', 'e', 's', 's', 'i', 'o', 'n', 'I', 'D']]),
   (['D', 'a', 't', 'a'], [['P', 'i', 'c', 'k', 'I', 'D'], ['Q', 'u', 'e', 'r', 'y', 'I', 'D']])]

theorem w221 : Checked t221 := ⟨b221, by kernel_rfl, by kernel_rfl, by kernel_rfl⟩

/-- Lines of `message_template.msg` up to the end of `ScriptQuestion`. -/
def c222 : List (List Char) :=
  [chars! "",
   chars! "",
   chars! "// ScriptQuestion",
   chars! "// reliable",
   chars! "{",
   chars! "\tScriptQuestion Low 188 Trusted Unencoded",
   chars! "\t{",
   chars! "\t\tData\tSingle",
   chars! "\t\t{\tTaskID\t\t\tLLUUID\t}",
   chars! "\t\t{\tItemID\t\t\tLLUUID\t}",
   chars! "\t\t{\tObjectName\t\tVariable\t1\t}",
   chars! "\t\t{\tObjectOwner\t\tVariable\t1\t}",
   chars! "\t\t{\tQuestions\t\tS32\t}",
   chars! "\t}",
   chars! "}"]

/-- `ScriptQuestion` as the parser creates it. -/
def r222 : RawTemplate :=
  ⟨"ScriptQuestion", .low, 188, [255, 255, 188], some .trusted, some .unencoded, some .notDeprecated,
    [⟨"Data", .single, 0, [⟨"Questions", some .s32, some 4⟩, ⟨"ObjectOwner", some .variable, some 1⟩, ⟨"ObjectName", some .variable, some 1⟩, ⟨"ItemID", some .uuid, some 16⟩, ⟨"TaskID", some .uuid, some 16⟩]⟩]⟩

/-- `ScriptQuestion` in file order. -/
def t222 : Template :=
  ⟨"ScriptQuestion", .low, 188, [], some .trusted, some .unencoded, some .notDeprecated,
    [⟨"Data", .single, 0, [⟨"TaskID", .uuid, 16⟩, ⟨"ItemID", .uuid, 16⟩, ⟨"ObjectName", .variable, 1⟩, ⟨"ObjectOwner", .variable, 1⟩, ⟨"Questions", .s32, 4⟩]⟩]⟩

theorem p222 : ChunkOk c222 r222 := by intro v older; kernel_rfl
theorem k222 : r222.known = some t222 := by kernel_rfl
theorem n222 : t222.name = String.ofList ['S', 'c', 'r', 'i', 'p', 't', 'Q', 'u', 'e', 's', 't', 'i', 'o', 'n'] := by kernel_rfl

/-- The names of the blocks and variables of `ScriptQuestion`. -/
def b222 : List (List Char × List (List Char)) :=
  [(['D', 'a', 't', 'a'], [['T', 'a', 's', 'k', 'I', 'D'], ['I', 't', 'e', 'm', 'I', 'D'], ['O', 'b', 'j', 'e', 'c', 't', 'N', 'a', 'm', 'e'], ['O', 'b', 'j', 'e', 'c', 't', 'O', 'w', 'n', 'e', 'r'], ['Q', 'u', 'e', 's', 't', 'i', 'o', 'n', 's']])]

theorem w222 : Checked t222 := ⟨b222, by kernel_rfl, by kernel_rfl, by kernel_rfl⟩

/-- Lines of `message_template.msg` up to the end of `ScriptControlChange`. -/
def c223 : List (List Char) :=
  [chars! "",
   chars! "// ScriptControlChange",
   chars! "// reliable",
   chars! "{",
   chars! "\tScriptControlChange Low 189 Trusted Unencoded",
   chars! "\t{",
   chars! "\t\tData\tVariable",
   chars! "\t\t{\tTakeControls\tBOOL \t}",
   chars! "\t\t{\tControls\t\tU32\t\t}",
   chars! "\t\t{\tPassToAgent\t\tBOOL\t}",
   chars! "\t}",
   chars! "}"]

/-- `ScriptControlChange` as the parser creates it. -/
def r223 : RawTemplate :=
  ⟨"ScriptControlChange", .low, 189, [255, 255, 189], some .trusted, some .unencoded, some .notDeprecated,
    [⟨"Data", .variable, 0, [⟨"PassToAgent", some .bool, some 1⟩, ⟨"Controls", some .u32, some 4⟩, ⟨"TakeControls", some .bool, some 1⟩]⟩]⟩

/-- `ScriptControlChange` in file order. -/
def t223 : Template :=
  ⟨"ScriptControlChange", .low, 189, [], some .trusted, some .unencoded, some .notDeprecated,
    [⟨"Data", .variable, 0, [⟨"TakeControls", .bool, 1⟩, ⟨"Controls", .u32, 4⟩, ⟨"PassToAgent", .bool, 1⟩]⟩]⟩

theorem p223 : ChunkOk c223 r223 := by intro v older; kernel_rfl
theorem k223 : r223.known = some t223 := by kernel_rfl
theorem n223 : t223.name = String.ofList ['S', 'c', 'r', 'i', 'p', 't', 'C', 'o', 'n', 't', 'r', 'o', 'l', 'C', 'h', 'a', 'n', 'g', 'e'] := by kernel_rfl

/-- The names of the blocks and variables of `ScriptControlChange`. -/
def b223 : List (List Char × List (List Char)) :=
  [(['D', 'a', 't', 'a'], [['T', 'a', 'k', 'e', 'C', 'o', 'n', 't', 'r', 'o', 'l', 's'], ['C', 'o', 'n', 't', 'r', 'o', 'l', 's'], ['P', 'a', 's', 's', 'T', 'o', 'A', 'g', 'e', 'n', 't']])]

theorem w223 : Checked t223 := ⟨b223, by kernel_rfl, by kernel_rfl, by kernel_rfl⟩

/-- Lines of `message_template.msg` up to the end of `ScriptDialog`. -/
def c224 : List (List Char) :=
  [chars! "",
   chars! "// ScriptDialog",
   chars! "// sim -> viewer",
   chars! "// reliable",
   chars! "{",
   chars! "\tScriptDialog Low 190 Trusted Zerocoded",
   chars! "\t{",
   chars! "\t\tData\tSingle",
   chars! "\t\t{\tObjectID\tLLUUID\t\t\t}",
   chars! "\t\t{\tFirstName\tVariable\t1\t}",
   chars! "\t\t{\tLastName\tVariable\t1\t}",
   chars! "\t\t{\tObjectName\tVariable\t1\t}",
   chars! "\t\t{\tMessage\t\tVariable\t2\t}",
   chars! "\t\t{\tChatChannel\tS32\t\t\t\t}",
   chars! "\t\t{\tImageID\t\tLLUUID\t\t\t}",
   chars! "\t}",
   chars! "\t{",
   chars! "\t\tButtons\tVariable",
   chars! "\t\t{\tButtonLabel\t\tVariable\t1\t}",
   chars! "\t}",
   chars! "}"]

/-- `ScriptDialog` as the parser creates it. -/
def r224 : RawTemplate :=
  ⟨"ScriptDialog", .low, 190, [255, 255, 190], some .trusted, some .zerocoded, some .notDeprecated,
    [⟨"Buttons", .variable, 0, [⟨"ButtonLabel", some .variable, some 1⟩]⟩,
     ⟨"Data", .single, 0, [⟨"ImageID", some .uuid, some 16⟩, ⟨"ChatChannel", some .s32, some 4⟩, ⟨"Message", some .variable, some 2⟩, ⟨"ObjectName", some .variable, some 1⟩, ⟨"LastName", some .variable, some 1⟩, ⟨"FirstName", some .variable, some 1⟩, ⟨"ObjectID", some .uuid, some 16⟩]⟩]⟩

/-- `ScriptDialog` in file order. -/
def t224 : Template :=
  ⟨"ScriptDialog", .low, 190, [], some .trusted, some .zerocoded, some .notDeprecated,
    [⟨"Data", .single, 0, [⟨"ObjectID", .uuid, 16⟩, ⟨"FirstName", .variable, 1⟩, ⟨"LastName", .variable, 1⟩, ⟨"ObjectName", .variable, 1⟩, ⟨"Message", .variable, 2⟩, ⟨"ChatChannel", .s32, 4⟩, ⟨"ImageID", .uuid, 16⟩]⟩,
     ⟨"Buttons", .variable, 0, [⟨"ButtonLabel", .variable, 1⟩]⟩]⟩

theorem p224 : ChunkOk c224 r224 := by intro v older; kernel_rfl
theorem k224 : r224.known = some t224 := by kernel_rfl
theorem n224 : t224.name = String.ofList ['S', 'c', 'r', 'i', 'p', 't', 'D', 'i', 'a', 'l', 'o', 'g'] := by kernel_rfl

/-- The names of the blocks and variables of `ScriptDialog`. -/
def b224 : List (List Char × List (List Char)) :=
  [(['D', 'a', 't', 'a'], [['O', 'b', 'j', 'e', 'c', 't', 'I', 'D'], ['F', 'i', 'r', 's', 't', 'N', 'a', 'm', 'e'], ['L', 'a', 's', 't', 'N', 'a', 'm', 'e'], ['O', 'b', 'j', 'e', 'c', 't', 'N', 'a', 'm', 'e'], ['M', 'e', 's', 's', 'a', 'g', 'e'], ['C', 'h', 'a', 't', 'C', 'h', 'a', 'n', 'n', 'e', 'l'], ['I', 'm', 'a', 'g', 'e', 'I', 'D']]),
   (['B', 'u', 't', 't', 'o', 'n', 's'], [['B', 'u', 't', 't', 'o', 'n', 'L', 'a', 'b', 'e', 'l']])]

theorem w224 : Checked t224 := ⟨b224, by kernel_rfl, by kernel_rfl, by kernel_rfl⟩

/-- Lines of `message_template.msg` up to the end of `ScriptDialogReply`. -/
def c225 : List (List Char) :=
  [chars! "",
   chars! "",
   chars! "// ScriptDialogReply",
   chars! "// viewer -> sim",
   chars! "// reliable",
   chars! "{",
   chars! "\tScriptDialogReply Low 191 NotTrusted Zerocoded",
   chars! "\t{",
   chars! "\t\tAgentData\t\tSingle",
   chars! "\t\t{\tAgentID\t\tLLUUID\t}",
   chars! "\t\t{\tSessionID\tLLUUID\t}",
   chars! "\t}",
   chars! "\t{",
   chars! "\t\tData\tSingle",
   chars! "\t\t{\tObjectID\tLLUUID\t\t\t}",
   chars! "\t\t{\tChatChannel\tS32\t\t\t\t}",
   chars! "\t\t{\tButtonIndex\tS32\t\t\t\t}",
   chars! "\t\t{\tButtonLabel\tVariable 1\t\t}",
   chars! "\t}",
   chars! "}"]

/-- `ScriptDialogReply` as the parser creates it. -/
def r225 : RawTemplate :=
  ⟨"ScriptDialogReply", .low, 191, [255, 255, 191], some .notTrusted, some .zerocoded, some .notDeprecated,
    [⟨"Data", .single, 0, [⟨"ButtonLabel", some .variable, some 1⟩, ⟨"ButtonIndex", some .s32, some 4⟩, ⟨"ChatChannel", some .s32, some 4⟩, ⟨"ObjectID", some .uuid, some 16⟩]⟩,
     ⟨"AgentData", .single, 0, [⟨"SessionID", some .uuid, some 16⟩, ⟨"AgentID", some .uuid, some 16⟩]⟩]⟩

/-- `ScriptDialogReply` in file order. -/
def t225 : Template :=
  ⟨"ScriptDialogReply", .low, 191, [], some .notTrusted, some .zerocoded, some .notDeprecated,
    [⟨"AgentData", .single, 0, [⟨"AgentID", .uuid, 16⟩, ⟨"SessionID", .uuid, 16⟩]⟩,
     ⟨"Data", .single, 0, [⟨"ObjectID", .uuid, 16⟩, ⟨"ChatChannel", .s32, 4⟩, ⟨"ButtonIndex", .s32, 4⟩, ⟨"ButtonLabel", .variable, 1⟩]⟩]⟩

theorem p225 : ChunkOk c225 r225 := by intro v older; kernel_rfl
theorem k225 : r225.known = some t225 := by kernel_rfl
theorem n225 : t225.name = String.ofList ['S', 'c', 'r', 'i', 'p', 't', 'D', 'i', 'a', 'l', 'o', 'g', 'R', 'e', 'p', 'l', 'y'] := by kernel_rfl

/-- The names of the blocks and variables of `ScriptDialogReply`. -/
def b225 : List (List Char × List (List Char)) :=
  [(['A', 'g', 'e', 'n', 't', 'D', 'a', 't', 'a'], [['A', 'g', 'e', 'n', 't', 'I', 'D'], ['S', 'e', 's', 's', 'i', 'o', 'n', 'I', 'D']]),
   (['D', 'a', 't', 'a'], [['O', 'b', 'j', 'e', 'c', 't', 'I', 'D'], ['C', 'h', 'a', 't', 'C', 'h', 'a', 'n', 'n', 'e', 'l'], ['B', 'u', 't', 't', 'o', 'n', 'I', 'n', 'd', 'e', 'x'], ['B', 'u', 't', 't', 'o', 'n', 'L', 'a', 'b', 'e', 'l']])]

theorem w225 : Checked t225 := ⟨b225, by kernel_rfl, by kernel_rfl, by kernel_rfl⟩

/-- Lines of `message_template.msg` up to the end of `ForceScriptControlRelease`. -/
def c226 : List (List Char) :=
  [chars! "",
   chars! "",
   chars! "// ForceScriptControlRelease",
   chars! "// reliable",
   chars! "{",
   chars! "\tForceScriptControlRelease Low 192 NotTrusted Unencoded",
   chars! "\t{",
   chars! "\t\tAgentData\t\tSingle",
   chars! "\t\t{\tAgentID\t\tLLUUID\t}",
   chars! "\t\t{\tSessionID\tLLUUID\t}",
   chars! "\t}",
   chars! "}"]

/-- `ForceScriptControlRelease` as the parser creates it. -/
def r226 : RawTemplate :=
  ⟨"ForceScriptControlRelease", .low, 192, [255, 255, 192], some .notTrusted, some .unencoded, some .notDeprecated,
    [⟨"AgentData", .single, 0, [⟨"SessionID", some .uuid, some 16⟩, ⟨"AgentID", some .uuid, some 16⟩]⟩]⟩

/-- `ForceScriptControlRelease` in file order. -/
def t226 : Template :=
  ⟨"ForceScriptControlRelease", .low, 192, [], some .notTrusted, some .unencoded, some .notDeprecated,
    [⟨"AgentData", .single, 0, [⟨"AgentID", .uuid, 16⟩, ⟨"SessionID", .uuid, 16⟩]⟩]⟩

theorem p226 : ChunkOk c226 r226 := by intro v older; kernel_rfl
theorem k226 : r226.known = some t226 := by kernel_rfl
theorem n226 : t226.name = String.ofList ['F', 'o', 'r', 'c', 'e', 'S', 'c', 'r', 'i', 'p', 't', 'C', 'o', 'n', 't', 'r', 'o', 'l', 'R', 'e', 'l', 'e', 'a', 's', 'e'] := by kernel_rfl

/-- The names of the blocks and variables of `ForceScriptControlRelease`. -/
def b226 : List (List Char × List (List Char)) :=
  [(['A', 'g', 'e', 'n', 't', 'D', 'a', 't', 'a'], [['A', 'g', 'e', 'n', 't', 'I', 'D'], ['S', 'e', 's', 's', 'i', 'o', 'n', 'I', 'D']])]

theorem w226 : Checked t226 := ⟨b226, by kernel_rfl, by kernel_rfl, by kernel_rfl⟩

/-- Lines of `message_template.msg` up to the end of `RevokePermissions`. -/
def c227 : List (List Char) :=
  [chars! "",
   chars! "// RevokePermissions",
   chars! "// reliable",
   chars! "{",
   chars! "\tRevokePermissions Low 193 NotTrusted Unencoded",
   chars! "\t{",
   chars! "\t\tAgentData\t\tSingle",
   chars! "\t\t{\tAgentID\t\tLLUUID\t}",
   chars! "\t\t{\tSessionID\tLLUUID\t}",
   chars! "\t}",
   chars! "\t{",
   chars! "\t\tData\tSingle",
   chars! "\t\t{ ObjectID\t\t\t\tLLUUID }",
   chars! "\t\t{ ObjectPermissions\t\tU32 }",
   chars! "\t}",
   chars! "}"]

/-- `RevokePermissions` as the parser creates it. -/
def r227 : RawTemplate :=
  ⟨"RevokePermissions", .low, 193, [255, 255, 193], some .notTrusted, some .unencoded, some .notDeprecated,
    [⟨"Data", .single, 0, [⟨"ObjectPermissions", some .u32, some 4⟩, ⟨"ObjectID", some .uuid, some 16⟩]⟩,
     ⟨"AgentData", .single, 0, [⟨"SessionID", some .uuid, some 16⟩, ⟨"AgentID", some .uuid, some 16⟩]⟩]⟩

/-- `RevokePermissions` in file order. -/
def t227 : Template :=
  ⟨"RevokePermissions", .low, 193, [], some .notTrusted, some .unencoded, some .notDeprecated,
    [⟨"AgentData", .single, 0, [⟨"AgentID", .uuid, 16⟩, ⟨"SessionID", .uuid, 16⟩]⟩,
     ⟨"Data", .single, 0, [⟨"ObjectID", .uuid, 16⟩, ⟨"ObjectPermissions", .u32, 4⟩]⟩]⟩

theorem p227 : ChunkOk c227 r227 := by intro v older; kernel_rfl
theorem k227 : r227.known = some t227 := by kernel_rfl
theorem n227 : t227.name = String.ofList ['R', 'e', 'v', 'o', 'k', 'e', 'P', 'e', 'r', 'm', 'i', 's', 's', 'i', 'o', 'n', 's'] := by kernel_rfl

/-- The names of the blocks and variables of `RevokePermissions`. -/
def b227 : List (List Char × List (List Char)) :=
  [(['A', 'g', 'e', 'n', 't', 'D', 'a', 't', 'a'], [['A', 'g', 'e', 'n', 't', 'I', 'D'], ['S', 'e', 's', 's', 'i', 'o', 'n', 'I', 'D']]),
   (['D', 'a', 't', 'a'], [['O', 'b', 'j', 'e', 'c', 't', 'I', 'D'], ['O', 'b', 'j', 'e', 'c', 't', 'P', 'e', 'r', 'm', 'i', 's', 's', 'i', 'o', 'n', 's']])]

theorem w227 : Checked t227 := ⟨b227, by kernel_rfl, by kernel_rfl, by kernel_rfl⟩

/-- Lines of `message_template.msg` up to the end of `LoadURL`. -/
def c228 : List (List Char) :=
  [chars! "",
   chars! "// LoadURL",
   chars! "// sim -> viewer",
   chars! "// Ask the user if they would like to load a URL",
   chars! "// reliable",
   chars! "{",
   chars! "\tLoadURL Low 194 Trusted Unencoded",
   chars! "\t{",
   chars! "\t\tData\tSingle",
   chars! "\t\t{\tObjectName\t\tVariable\t1\t}",
   chars! "\t\t{\tObjectID\t\tLLUUID\t\t\t}",
   chars! "\t\t{\tOwnerID\t\t\tLLUUID\t\t\t}",
   chars! "\t\t{\tOwnerIsGroup\tBOOL\t\t\t}",
   chars! "\t\t{\tMessage\t\t\tVariable\t1\t}",
   chars! "\t\t{\tURL\t\t\t\tVariable\t1\t}",
   chars! "\t}",
   chars! "}"]

/-- `LoadURL` as the parser creates it. -/
def r228 : RawTemplate :=
  ⟨"LoadURL", .low, 194, [255, 255, 194], some .trusted, some .unencoded, some .notDeprecated,
    [⟨"Data", .single, 0, [⟨"URL", some .variable, some 1⟩, ⟨"Message", some .variable, some 1⟩, ⟨"OwnerIsGroup", some .bool, some 1⟩, ⟨"OwnerID", some .uuid, some 16⟩, ⟨"ObjectID", some .uuid, some 16⟩, ⟨"ObjectName", some .variable, some 1⟩]⟩]⟩

/-- `LoadURL` in file order. -/
def t228 : Template :=
  ⟨"LoadURL", .low, 194, [], some .trusted, some .unencoded, some .notDeprecated,
    [⟨"Data", .single, 0, [⟨"ObjectName", .variable, 1⟩, ⟨"ObjectID", .uuid, 16⟩, ⟨"OwnerID", .uuid, 16⟩, ⟨"OwnerIsGroup", .bool, 1⟩, ⟨"Message", .variable, 1⟩, ⟨"URL", .variable, 1⟩]⟩]⟩

theorem p228 : ChunkOk c228 r228 := by intro v older; kernel_rfl
theorem k228 : r228.known = some t228 := by kernel_rfl
theorem n228 : t228.name = String.ofList ['L', 'o', 'a', 'd', 'U', 'R', 'L'] := by kernel_rfl

/-- The names of the blocks and variables of `LoadURL`. -/
def b228 : List (List Char × List (List Char)) :=
  [(['D', 'a', 't', 'a'], [['O', 'b', 'j', 'e', 'c', 't', 'N', 'a', 'm', 'e'], ['O', 'b', 'j', 'e', 'c', 't', 'I', 'D'], ['O', 'w', 'n', 'e', 'r', 'I', 'D'], ['O', 'w', 'n', 'e', 'r', 'I', 's', 'G', 'r', 'o', 'u', 'p'], ['M', 'e', 's', 's', 'a', 'g', 'e'], ['U', 'R', 'L']])]

theorem w228 : Checked t228 := ⟨b228, by kernel_rfl, by kernel_rfl, by kernel_rfl⟩

/-- Lines of `message_template.msg` up to the end of `ScriptTeleportRequest`. -/
def c229 : List (List Char) :=
  [chars! "",
   chars! "// ScriptTeleportRequest",
   chars! "// reliable",
   chars! "{",
   chars! "\tScriptTeleportRequest Low 195 Trusted Unencoded",
   chars! "\t{",
   chars! "\t\tData\tSingle",
   chars! "\t\t{\tObjectName\t\tVariable\t1\t}",
   chars! "\t\t{\tSimName\t\t\tVariable\t1\t}",
   chars! "\t\t{\tSimPosition\t\tLLVector3\t\t}",
   chars! "\t\t{\tLookAt\t\t\tLLVector3\t\t}",
   chars! "\t}",
   chars! "}"]

/-- `ScriptTeleportRequest` as the parser creates it. -/
def r229 : RawTemplate :=
  ⟨"ScriptTeleportRequest", .low, 195, [255, 255, 195], some .trusted, some .unencoded, some .notDeprecated,
    [⟨"Data", .single, 0, [⟨"LookAt", some .vector3, some 12⟩, ⟨"SimPosition", some .vector3, some 12⟩, ⟨"SimName", some .variable, some 1⟩, ⟨"ObjectName", some .variable, some 1⟩]⟩]⟩

/-- `ScriptTeleportRequest` in file order. -/
def t229 : Template :=
  ⟨"ScriptTeleportRequest", .low, 195, [], some .trusted, some .unencoded, some .notDeprecated,
    [⟨"Data", .single, 0, [⟨"ObjectName", .variable, 1⟩, ⟨"SimName", .variable, 1⟩, ⟨"SimPosition", .vector3, 12⟩, ⟨"LookAt", .vector3, 12⟩]⟩]⟩

theorem p229 : ChunkOk c229 r229 := by intro v older; kernel_rfl
theorem k229 : r229.known = some t229 := by kernel_rfl
theorem n229 : t229.name = String.ofList ['S', 'c', 'r', 'i', 'p', 't', 'T', 'e', 'l', 'e', 'p', 'o', 'r', 't', 'R', 'e', 'q', 'u', 'e', 's', 't'] := by kernel_rfl

/-- The names of the blocks and variables of `ScriptTeleportRequest`. -/
def b229 : List (List Char × List (List Char)) :=
  [(['D', 'a', 't', 'a'], [['O', 'b', 'j', 'e', 'c', 't', 'N', 'a', 'm', 'e'], ['S', 'i', 'm', 'N', 'a', 'm', 'e'], ['S', 'i', 'm', 'P', 'o', 's', 'i', 't', 'i', 'o', 'n'], ['L', 'o', 'o', 'k', 'A', 't']])]

theorem w229 : Checked t229 := ⟨b229, by kernel_rfl, by kernel_rfl, by kernel_rfl⟩

/-- Lines of `message_template.msg` up to the end of `ParcelOverlay`. -/
def c230 : List (List Char) :=
  [chars! "",
   chars! "",
   chars! "",
   chars! "",
   chars! "// ***************************************************************************",
   chars! "// Land Parcel system",
   chars! "// ***************************************************************************",
   chars! "",
   chars! "// ParcelOverlay",
   chars! "// We send N packets per region to the viewer.",
   chars! "// N = 4, currently.  At 256x256 meter regions, 4x4 meter parcel grid,",
   chars! "// there are 4096 parcel units per region.  At N = 4, that's 1024 units",
   chars! "// per packet, allowing 8 bit bytes.",
   chars! "// sim -> viewer",
   chars! "// reliable",
   chars! "{",
   chars! "\tParcelOverlay Low 196 Trusted Zerocoded",
   chars! "\t{",
   chars! "\t\tParcelData\t\tSingle",
   chars! "\t\t{\tSequenceID\tS32\t\t\t\t}\t// 0...3, which piece of region",
   chars! "\t\t{\tData\t\tVariable\t2\t}\t// packed bit-field, (grids*grids)/N",
   chars! "\t}",
   chars! "}"]

/-- `ParcelOverlay` as the parser creates it. -/
def r230 : RawTemplate :=
  ⟨"ParcelOverlay", .low, 196, [255, 255, 196], some .trusted, some .zerocoded, some .notDeprecated,
    [⟨"ParcelData", .single, 0, [⟨"Data", some .variable, some 2⟩, ⟨"SequenceID", some .s32, some 4⟩]⟩]⟩

/-- `ParcelOverlay` in file order. -/
def t230 : Template :=
  ⟨"ParcelOverlay", .low, 196, [], some .trusted, some .zerocoded, some .notDeprecated,
    [⟨"ParcelData", .single, 0, [⟨"SequenceID", .s32, 4⟩, ⟨"Data", .variable, 2⟩]⟩]⟩

theorem p230 : ChunkOk c230 r230 := by intro v older; kernel_rfl
theorem k230 : r230.known = some t230 := by kernel_rfl
theorem n230 : t230.name = String.ofList ['P', 'a', 'r', 'c', 'e', 'l', 'O', 'v', 'e', 'r', 'l', 'a', 'y'] := by kernel_rfl

/-- The names of the blocks and variables of `ParcelOverlay`. -/
def b230 : List (List Char × List (List Char)) :=
  [(['P', 'a', 'r', 'c', 'e', 'l', 'D', 'a', 't', 'a'], [['S', 'e', 'q', 'u', 'e', 'n', 'c', 'e', 'I', 'D'], ['D', 'a', 't', 'a']])]

theorem w230 : Checked t230 := ⟨b230, by kernel_rfl, by kernel_rfl, by kernel_rfl⟩

/-- Lines of `message_template.msg` up to the end of `ParcelPropertiesRequest`. -/
def c231 : List (List Char) :=
  [chars! "",
   chars! "",
   chars! "// ParcelPropertiesRequest",
   chars! "// SequenceID should be -1 or -2, and is echoed back in the",
   chars! "// parcel properties message.",
   chars! "// viewer -> sim",
   chars! "// reliable",
   chars! "{",
   chars! "\tParcelPropertiesRequest Medium 11 NotTrusted Zerocoded",
   chars! "\t{",
   chars! "\t\tAgentData\t\tSingle",
   chars! "\t\t{\tAgentID\t\tLLUUID\t}",
   chars! "\t\t{\tSessionID\tLLUUID\t}",
   chars! "\t}",
   chars! "\t{",
   chars! "\t\tParcelData\t\t\tSingle",
   chars! "\t\t{\tSequenceID\tS32\t}",
   chars! "\t\t{\tWest\t\tF32\t}",
   chars! "\t\t{\tSouth\t\tF32\t}",
   chars! "\t\t{\tEast\t\tF32\t}",
   chars! "\t\t{\tNorth\t\tF32\t}",
   chars! "\t\t{\tSnapSelection\tBOOL\t}",
   chars! "\t}",
   chars! "}"]

/-- `ParcelPropertiesRequest` as the parser creates it. -/
def r231 : RawTemplate :=
  ⟨"ParcelPropertiesRequest", .medium, 11, [255, 11], some .notTrusted, some .zerocoded, some .notDeprecated,
    [⟨"ParcelData", .single, 0, [⟨"SnapSelection", some .bool, some 1⟩, ⟨"North", some .f32, some 4⟩, ⟨"East", some .f32, some 4⟩, ⟨"South", some .f32, some 4⟩, ⟨"West", some .f32, some 4⟩, ⟨"SequenceID", some .s32, some 4⟩]⟩,
     ⟨"AgentData", .single, 0, [⟨"SessionID", some .uuid, some 16⟩, ⟨"AgentID", some .uuid, some 16⟩]⟩]⟩

/-- `ParcelPropertiesRequest` in file order. -/
def t231 : Template :=
  ⟨"ParcelPropertiesRequest", .medium, 11, [], some .notTrusted, some .zerocoded, some .notDeprecated,
    [⟨"AgentData", .single, 0, [⟨"AgentID", .uuid, 16⟩, ⟨"SessionID", .uuid, 16⟩]⟩,
     ⟨"ParcelData", .single, 0, [⟨"SequenceID", .s32, 4⟩, ⟨"West", .f32, 4⟩, ⟨"South", .f32, 4⟩, ⟨"East", .f32, 4⟩, ⟨"North", .f32, 4⟩, ⟨"SnapSelection", .bool, 1⟩]⟩]⟩

theorem p231 : ChunkOk c231 r231 := by intro v older; kernel_rfl
theorem k231 : r231.known = some t231 := by kernel_rfl
theorem n231 : t231.name = String.ofList ['P', 'a', 'r', 'c', 'e', 'l', 'P', 'r', 'o', 'p', 'e', 'r', 't', 'i', 'e', 's', 'R', 'e', 'q', 'u', 'e', 's', 't'] := by kernel_rfl

/-- The names of the blocks and variables of `ParcelPropertiesRequest`. -/
def b231 : List (List Char × List (List Char)) :=
  [(['A', 'g', 'e', 'n', 't', 'D', 'a', 't', 'a'], [['A', 'g', 'e', 'n', 't', 'I', 'D'], ['S', 'e', 's', 's', 'i', 'o', 'n', 'I', 'D']]),
   (['P', 'a', 'r', 'c', 'e', 'l', 'D', 'a', 't', 'a'], [['S', 'e', 'q', 'u', 'e', 'n', 'c', 'e', 'I', 'D'], ['W', 'e', 's', 't'], ['S', 'o', 'u', 't', 'h'], ['E', 'a', 's', 't'], ['N', 'o', 'r', 't', 'h'], ['S', 'n', 'a', 'p', 'S', 'e', 'l', 'e', 'c', 't', 'i', 'o', 'n']])]

theorem w231 : Checked t231 := ⟨b231, by kernel_rfl, by kernel_rfl, by kernel_rfl⟩

/-- Lines of `message_template.msg` up to the end of `ParcelPropertiesRequestByID`. -/
def c232 : List (List Char) :=
  [chars! "",
   chars! "// ParcelPropertiesRequestByID",
   chars! "// viewer -> sim",
   chars! "// reliable",
   chars! "{",
   chars! "\tParcelPropertiesRequestByID Low 197 NotTrusted Zerocoded",
   chars! "\t{",
   chars! "\t\tAgentData\t\tSingle",
   chars! "\t\t{\tAgentID\t\tLLUUID\t}",
   chars! "\t\t{\tSessionID\tLLUUID\t}",
   chars! "\t}",
   chars! "\t{",
   chars! "\t\tParcelData\t\tSingle",
   chars! "\t\t{\tSequenceID\tS32\t\t}",
   chars! "\t\t{\tLocalID\t\tS32\t\t}",
   chars! "\t}",
   chars! "}"]

/-- `ParcelPropertiesRequestByID` as the parser creates it. -/
def r232 : RawTemplate :=
  ⟨"ParcelPropertiesRequestByID", .low, 197, [255, 255, 197], some .notTrusted, some .zerocoded, some .notDeprecated,
    [⟨"ParcelData", .single, 0, [⟨"LocalID", some .s32, some 4⟩, ⟨"SequenceID", some .s32, some 4⟩]⟩,
     ⟨"AgentData", .single, 0, [⟨"SessionID", some .uuid, some 16⟩, ⟨"AgentID", some .uuid, some 16⟩]⟩]⟩

/-- `ParcelPropertiesRequestByID` in file order. -/
def t232 : Template :=
  ⟨"ParcelPropertiesRequestByID", .low, 197, [], some .notTrusted, some .zerocoded, some .notDeprecated,
    [⟨"AgentData", .single, 0, [⟨"AgentID", .uuid, 16⟩, ⟨"SessionID", .uuid, 16⟩]⟩,
     ⟨"ParcelData", .single, 0, [⟨"SequenceID", .s32, 4⟩, ⟨"LocalID", .s32, 4⟩]⟩]⟩

theorem p232 : ChunkOk c232 r232 := by intro v older; kernel_rfl
theorem k232 : r232.known = some t232 := by kernel_rfl
theorem n232 : t232.name = String.ofList ['P', 'a', 'r', 'c', 'e', 'l', 'P', 'r', 'o', 'p', 'e', 'r', 't', 'i', 'e', 's', 'R', 'e', 'q', 'u', 'e', 's', 't', 'B', 'y', 'I', 'D'] := by kernel_rfl

/-- The names of the blocks and variables of `ParcelPropertiesRequestByID`. -/
def b232 : List (List Char × List (List Char)) :=
  [(['A', 'g', 'e', 'n', 't', 'D', 'a', 't', 'a'], [['A', 'g', 'e', 'n', 't', 'I', 'D'], ['S', 'e', 's', 's', 'i', 'o', 'n', 'I', 'D']]),
   (['P', 'a', 'r', 'c', 'e', 'l', 'D', 'a', 't', 'a'], [['S', 'e', 'q', 'u', 'e', 'n', 'c', 'e', 'I', 'D'], ['L', 'o', 'c', 'a', 'l', 'I', 'D']])]

theorem w232 : Checked t232 := ⟨b232, by kernel_rfl, by kernel_rfl, by kernel_rfl⟩

/-- Lines of `message_template.msg` up to the end of `ParcelProperties`. -/
def c233 : List (List Char) :=
  [chars! "",
   chars! "// ParcelProperties",
   chars! "// sequence id = -1 for parcels that you explicitly selected",
   chars! "// For agents, sequence id increments every time the agent transits into",
   chars! "// a new parcel.  It is used to detect out-of-order agent parcel info updates.",
   chars! "// Bitmap = packed bit field, one bit per parcel grid, on if that grid is",
   chars! "//        part of the selected parcel.",
   chars! "// sim -> viewer",
   chars! "// WARNING: This packet is potentially large.  With max length name,",
   chars! "// description, music URL and media URL, it is 1526 + sizeof ( LLUUID ) bytes.",
   chars! "{",
   chars! "\tParcelProperties High 23 Trusted Zerocoded",
   chars! "\t{",
   chars! "\t\tParcelData\t\t\tSingle",
   chars! "\t\t{\tRequestResult\tS32\t\t\t\t}",
   chars! "\t\t{\tSequenceID\t\tS32\t\t\t\t}",
   chars! "\t\t{\tSnapSelection\tBOOL\t\t\t}",
   chars! "\t\t{\tSelfCount\t\tS32\t\t\t\t}",
   chars! "\t\t{\tOtherCount\t\tS32\t\t\t\t}",
   chars! "\t\t{\tPublicCount\t\tS32\t\t\t\t}",
   chars! "\t\t{\tLocalID\t\t\tS32\t\t\t\t}",
   chars! "\t\t{\tOwnerID\t\t\tLLUUID\t\t\t}",
   chars! "\t\t{\tIsGroupOwned\tBOOL\t\t\t}",
   chars! "\t\t{\tAuctionID\t\tU32\t\t\t\t}",
   chars! "\t\t{\tClaimDate\t\tS32\t\t\t\t}\t// time_t",
   chars! "\t\t{\tClaimPrice\t\tS32\t\t\t\t}",
   chars! "\t\t{\tRentPrice\t\tS32\t\t\t\t}",
   chars! "\t\t{\tAABBMin\t\t\tLLVector3\t\t}",
   chars! "\t\t{\tAABBMax\t\t\tLLVector3\t\t}",
   chars! "\t\t{\tBitmap\t\t\tVariable\t2\t}\t// packed bit-field",
   chars! "\t\t{\tArea\t\t\tS32\t\t\t\t}",
   chars! "\t\t{\tStatus\t\t\tU8\t}  // owned vs. pending",
   chars! "\t\t{\tSimWideMaxPrims\t\tS32\t\t\t}",
   chars! "\t\t{\tSimWideTotalPrims\tS32\t\t\t}",
   chars! "\t\t{\tMaxPrims\t\tS32\t\t\t\t}",
   chars! "\t\t{\tTotalPrims\t\tS32\t\t\t\t}",
   chars! "\t\t{\tOwnerPrims\t\tS32\t\t\t\t}",
   chars! "\t\t{\tGroupPrims\t\tS32\t\t\t\t}",
   chars! "\t\t{\tOtherPrims\t\tS32\t\t\t\t}",
   chars! "\t\t{\tSelectedPrims\tS32\t\t\t\t}",
   chars! "\t\t{\tParcelPrimBonus\tF32\t\t\t\t}",
   chars! "",
   chars! "\t\t{\tOtherCleanTime\tS32\t\t\t\t}",
   chars! "",
   chars! "\t\t{\tParcelFlags\t\tU32\t\t\t\t}",
   chars! "\t\t{\tSalePrice\t\tS32\t\t\t\t}",
   chars! "\t\t{\tName\t\t\tVariable\t1\t}\t// string",
   chars! "\t\t{\tDesc\t\t\tVariable\t1\t}\t// string",
   chars! "\t\t{\tMusicURL\t\tVariable\t1\t}\t// string",
   chars! "\t\t{\tMediaURL\t\tVariable\t1\t}\t// string",
   chars! "\t\t{\tMediaID\t\t\tLLUUID\t\t\t}",
   chars! "\t\t{\tMediaAutoScale\tU8\t\t\t\t}",
   chars! "\t\t{\tGroupID\t\t\tLLUUID\t\t\t}",
   chars! "\t\t{\tPassPrice\t\tS32\t\t\t\t}",
   chars! "\t\t{\tPassHours\t\tF32\t\t\t\t}",
   chars! "\t\t{\tCategory\t\tU8\t\t\t\t}",
   chars! "\t\t{\tAuthBuyerID\t\tLLUUID\t\t\t}",
   chars! "\t\t{\tSnapshotID\t\tLLUUID\t\t\t}",
   chars! "\t\t{\tUserLocation\tLLVector3\t\t}",
   chars! "\t\t{\tUserLookAt\t\tLLVector3\t\t}",
   chars! "\t\t{\tLandingType\t\tU8\t\t\t\t}",
   chars! "\t\t{\tRegionPushOverride\tBOOL\t\t}",
   chars! "\t\t{\tRegionDenyAnonymous\tBOOL\t\t}",
   chars! "\t\t{\tRegionDenyIdentified\tBOOL\t\t}",
   chars! "\t\t{\tRegionDenyTransacted\tBOOL\t\t}",
   chars! "\t}",
   chars! "\t{",
   chars! "\t\tAgeVerificationBlock Single",
   chars! "\t\t{   RegionDenyAgeUnverified BOOL    }",
   chars! "\t}",
   chars! "}"]

/-- `ParcelProperties` as the parser creates it. -/
def r233 : RawTemplate :=
  ⟨"ParcelProperties", .high, 23, [23], some .trusted, some .zerocoded, some .notDeprecated,
    [⟨"AgeVerificationBlock", .single, 0, [⟨"RegionDenyAgeUnverified", some .bool, some 1⟩]⟩,
     ⟨"ParcelData", .single, 0, [⟨"RegionDenyTransacted", some .bool, some 1⟩, ⟨"RegionDenyIdentified", some .bool, some 1⟩, ⟨"RegionDenyAnonymous", some .bool, some 1⟩, ⟨"RegionPushOverride", some .bool, some 1⟩, ⟨"LandingType", some .u8, some 1⟩, ⟨"UserLookAt", some .vector3, some 12⟩, ⟨"UserLocation", some .vector3, some 12⟩, ⟨"SnapshotID", some .uuid, some 16⟩, ⟨"AuthBuyerID", some .uuid, some 16⟩, ⟨"Category", some .u8, some 1⟩, ⟨"PassHours", some .f32, some 4⟩, ⟨"PassPrice", some .s32, some 4⟩, ⟨"GroupID", some .uuid, some 16⟩, ⟨"MediaAutoScale", some .u8, some 1⟩, ⟨"MediaID", some .uuid, some 16⟩, ⟨"MediaURL", some .variable, some 1⟩, ⟨"MusicURL", some .variable, some 1⟩, ⟨"Desc", some .variable, some 1⟩, ⟨"Name", some .variable, some 1⟩, ⟨"SalePrice", some .s32, some 4⟩, ⟨"ParcelFlags", some .u32, some 4⟩, ⟨"OtherCleanTime", some .s32, some 4⟩, ⟨"ParcelPrimBonus", some .f32, some 4⟩, ⟨"SelectedPrims", some .s32, some 4⟩, ⟨"OtherPrims", some .s32, some 4⟩, ⟨"GroupPrims", some .s32, some 4⟩, ⟨"OwnerPrims", some .s32, some 4⟩, ⟨"TotalPrims", some .s32, some 4⟩, ⟨"MaxPrims", some .s32, some 4⟩, ⟨"SimWideTotalPrims", some .s32, some 4⟩, ⟨"SimWideMaxPrims", some .s32, some 4⟩, ⟨"Status", some .u8, some 1⟩, ⟨"Area", some .s32, some 4⟩, ⟨"Bitmap", some .variable, some 2⟩, ⟨"AABBMax", some .vector3, some 12⟩, ⟨"AABBMin", some .vector3, some 12⟩, ⟨"RentPrice", some .s32, some 4⟩, ⟨"ClaimPrice", some .s32, some 4⟩, ⟨"ClaimDate", some .s32, some 4⟩, ⟨"AuctionID", some .u32, some 4⟩, ⟨"IsGroupOwned", some .bool, some 1⟩, ⟨"OwnerID", some .uuid, some 16⟩, ⟨"LocalID", some .s32, some 4⟩, ⟨"PublicCount", some .s32, some 4⟩, ⟨"OtherCount", some .s32, some 4⟩, ⟨"SelfCount", some .s32, some 4⟩, ⟨"SnapSelection", some .bool, some 1⟩, ⟨"SequenceID", some .s32, some 4⟩, ⟨"RequestResult", some .s32, some 4⟩]⟩]⟩

/-- `ParcelProperties` in file order. -/
def t233 : Template :=
  ⟨"ParcelProperties", .high, 23, [], some .trusted, some .zerocoded, some .notDeprecated,
    [⟨"ParcelData", .single, 0, [⟨"RequestResult", .s32, 4⟩, ⟨"SequenceID", .s32, 4⟩, ⟨"SnapSelection", .bool, 1⟩, ⟨"SelfCount", .s32, 4⟩, ⟨"OtherCount", .s32, 4⟩, ⟨"PublicCount", .s32, 4⟩, ⟨"LocalID", .s32, 4⟩, ⟨"OwnerID", .uuid, 16⟩, ⟨"IsGroupOwned", .bool, 1⟩, ⟨"AuctionID", .u32, 4⟩, ⟨"ClaimDate", .s32, 4⟩, ⟨"ClaimPrice", .s32, 4⟩, ⟨"RentPrice", .s32, 4⟩, ⟨"AABBMin", .vector3, 12⟩, ⟨"AABBMax", .vector3, 12⟩, ⟨"Bitmap", .variable, 2⟩, ⟨"Area", .s32, 4⟩, ⟨"Status", .u8, 1⟩, ⟨"SimWideMaxPrims", .s32, 4⟩, ⟨"SimWideTotalPrims", .s32, 4⟩, ⟨"MaxPrims", .s32, 4⟩, ⟨"TotalPrims", .s32, 4⟩, ⟨"OwnerPrims", .s32, 4⟩, ⟨"GroupPrims", .s32, 4⟩, ⟨"OtherPrims", .s32, 4⟩, ⟨"SelectedPrims", .s32, 4⟩, ⟨"ParcelPrimBonus", .f32, 4⟩, ⟨"OtherCleanTime", .s32, 4⟩, ⟨"ParcelFlags", .u32, 4⟩, ⟨"SalePrice", .s32, 4⟩, ⟨"Name", .variable, 1⟩, ⟨"Desc", .variable, 1⟩, ⟨"MusicURL", .variable, 1⟩, ⟨"MediaURL", .variable, 1⟩, ⟨"MediaID", .uuid, 16⟩, ⟨"MediaAutoScale", .u8, 1⟩, ⟨"GroupID", .uuid, 16⟩, ⟨"PassPrice", .s32, 4⟩, ⟨"PassHours", .f32, 4⟩, ⟨"Category", .u8, 1⟩, ⟨"AuthBuyerID", .uuid, 16⟩, ⟨"SnapshotID", .uuid, 16⟩, ⟨"UserLocation", .vector3, 12⟩, ⟨"UserLookAt", .vector3, 12⟩, ⟨"LandingType", .u8, 1⟩, ⟨"RegionPushOverride", .bool, 1⟩, ⟨"RegionDenyAnonymous", .bool, 1⟩, ⟨"RegionDenyIdentified", .bool, 1⟩, ⟨"RegionDenyTransacted", .bool, 1⟩]⟩,
     ⟨"AgeVerificationBlock", .single, 0, [⟨"RegionDenyAgeUnverified", .bool, 1⟩]⟩]⟩

theorem p233 : ChunkOk c233 r233 := by intro v older; kernel_rfl
theorem k233 : r233.known = some t233 := by kernel_rfl
theorem n233 : t233.name = String.ofList ['P', 'a', 'r', 'c', 'e', 'l', 'P', 'r', 'o', 'p', 'e', 'r', 't', 'i', 'e', 's'] := by kernel_rfl

/-- The names of the blocks and variables of `ParcelProperties`. -/
def b233 : List (List Char × List (List Char)) :=
  [(['P', 'a', 'r', 'c', 'e', 'l', 'D', 'a', 't', 'a'], [['R', 'e', 'q', 'u', 'e', 's', 't', 'R', 'e', 's', 'u', 'l', 't'], ['S', 'e', 'q', 'u', 'e', 'n', 'c', 'e', 'I', 'D'], ['S', 'n', 'a', 'p', 'S', 'e', 'l', 'e', 'c', 't', 'i', 'o', 'n'], ['S', 'e', 'l', 'f', 'C', 'o', 'u', 'n', 't'], ['O', 't', 'h', 'e', 'r', 'C', 'o', 'u', 'n', 't'], ['P', 'u', 'b', 'l', 'i', 'c', 'C', 'o', 'u', 'n', 't'], ['L', 'o', 'c', 'a', 'l', 'I', 'D'], ['O', 'w', 'n', 'e', 'r', 'I', 'D'], ['I', 's', 'G', 'r', 'o', 'u', 'p', 'O', 'w', 'n', 'e', 'd'], ['A', 'u', 'c', 't', 'i', 'o', 'n', 'I', 'D'], ['C', 'l', 'a', 'i', 'm', 'D', 'a', 't', 'e'], ['C', 'l', 'a', 'i', 'm', 'P', 'r', 'i', 'c', 'e'], ['R', 'e', 'n', 't', 'P', 'r', 'i', 'c', 'e'], ['A', 'A', 'B', 'B', 'M', 'i', 'n'], ['A', 'A', 'B', 'B', 'M', 'a', 'x'], ['B', 'i', 't', 'm', 'a', 'p'], ['A', 'r', 'e', 'a'], ['S', 't', 'a', 't', 'u', 's'], ['S', 'i', 'm', 'W', 'i', 'd', 'e', 'M', 'a', 'x', 'P', 'r', 'i', 'm', 's'], ['S', 'i', 'm', 'W', 'i', 'd', 'e', 'T', 'o', 't', 'a', 'l', 'P', 'r', 'i', 'm', 's'], ['M', 'a', 'x', 'P', 'r', 'i', 'm', 's'], ['T', 'o', 't', 'a', 'l', 'P', 'r', 'i', 'm', 's'], ['O', 'w', 'n', 'e', 'r', 'P', 'r', 'i', 'm', 's'], ['G', 'r', 'o', 'u', 'p', 'P', 'r', 'i', 'm', 's'], ['O', 't', 'h', 'e', 'r', 'P', 'r', 'i', 'm', 's'], ['S', 'e', 'l', 'e', 'c', 't', 'e', 'd', 'P', 'r', 'i', 'm', 's'], ['P', 'a', 'r', 'c', 'e', 'l', 'P', 'r', 'i', 'm', 'B', 'o', 'n', 'u', 's'], ['O', 't', 'h', 'e', 'r', 'C', 'l', 'e', 'a', 'n', 'T', 'i', 'm', 'e'], ['P', 'a', 'r', 'c', 'e', 'l', 'F', 'l', 'a', 'g', 's'], ['S', 'a', 'l', 'e', 'P', 'r', 'i', 'c', 'e'], ['N', 'a', 'm', 'e'], ['D', 'e', 's', 'c'], ['M', 'u', 's', 'i', 'c', 'U', 'R', 'L'], ['M', 'e', 'd', 'i', 'a', 'U', 'R', 'L'], ['M', 'e', 'd', 'i', 'a', 'I', 'D'], ['M', 'e', 'd', 'i', 'a', 'A', 'u', 't', 'o', 'S', 'c', 'a', 'l', 'e'], ['G', 'r', 'o', 'u', 'p', 'I', 'D'], ['P', 'a', 's', 's', 'P', 'r', 'i', 'c', 'e'], ['P', 'a', 's', 's', 'H', 'o', 'u', 'r', 's'], ['C', 'a', 't', 'e', 'g', 'o', 'r', 'y'], ['A', 'u', 't', 'h', 'B', 'u', 'y', 'e', 'r', 'I', 'D'], ['S', 'n', 'a', 'p', 's', 'h', 'o', 't', 'I', 'D'], ['U', 's', 'e', 'r', 'L', 'o', 'c', 'a', 't', 'i', 'o', 'n'], ['U', 's', 'e', 'r', 'L', 'o', 'o', 'k', 'A', 't'], ['L', 'a', 'n', 'd', 'i', 'n', 'g', 'T', 'y', 'p', 'e'], ['R', 'e', 'g', 'i', 'o', 'n', 'P', 'u', 's', 'h', 'O', 'v', 'e', 'r', 'r', 'i', 'd', 'e'], ['R', 'e', 'g', 'i', 'o', 'n', 'D', 'e', 'n', 'y', 'A', 'n', 'o', 'n', 'y', 'm', 'o', 'u', 's'], ['R', 'e', 'g', 'i', 'o', 'n', 'D', 'e', 'n', 'y', 'I', 'd', 'e', 'n', 't', 'i', 'f', 'i', 'e', 'd'], ['R', 'e', 'g', 'i', 'o', 'n', 'D', 'e', 'n', 'y', 'T', 'r', 'a', 'n', 's', 'a', 'c', 't', 'e', 'd']]),
   (['A', 'g', 'e', 'V', 'e', 'r', 'i', 'f', 'i', 'c', 'a', 't', 'i', 'o', 'n', 'B', 'l', 'o', 'c', 'k'], [['R', 'e', 'g', 'i', 'o', 'n', 'D', 'e', 'n', 'y', 'A', 'g', 'e', 'U', 'n', 'v', 'e', 'r', 'i', 'f', 'i', 'e', 'd']])]

theorem w233 : Checked t233 := ⟨b233, by kernel_rfl, by kernel_rfl, by kernel_rfl⟩

/-- Lines of `message_template.msg` up to the end of `ParcelPropertiesUpdate`. -/
def c234 : List (List Char) :=
  [chars! "",
   chars! "// ParcelPropertiesUpdate",
   chars! "// viewer -> sim",
   chars! "// reliable",
   chars! "{",
   chars! "\tParcelPropertiesUpdate Low 198 NotTrusted Zerocoded",
   chars! "\t{",
   chars! "\t\tAgentData\t\tSingle",
   chars! "\t\t{\tAgentID\t\t\tLLUUID\t}",
   chars! "\t\t{\tSessionID\t\tLLUUID\t}",
   chars! "\t}",
   chars! "\t{",
   chars! "\t\tParcelData\t\t\tSingle",
   chars! "\t\t{\tLocalID\t\t\tS32\t\t\t\t}",
   chars! "\t\t{\tFlags\t\t\tU32\t\t\t\t}",
   chars! "",
   chars! "\t\t{\tParcelFlags\t\tU32\t\t\t\t}",
   chars! "\t\t{\tSalePrice\t\tS32\t\t\t\t}",
   chars! "\t\t{\tName\t\t\tVariable\t1\t}\t// string",
   chars! "\t\t{\tDesc\t\t\tVariable\t1\t}\t// string",
   chars! "\t\t{\tMusicURL\t\tVariable\t1\t}\t// string",
   chars! "\t\t{\tMediaURL\t\tVariable\t1\t}\t// string",
   chars! "\t\t{\tMediaID\t\t\tLLUUID\t\t\t}",
   chars! "\t\t{\tMediaAutoScale\tU8\t\t\t\t}",
   chars! "\t\t{\tGroupID\t\t\tLLUUID\t\t\t}",
   chars! "\t\t{\tPassPrice\t\tS32\t\t\t\t}",
   chars! "\t\t{\tPassHours\t\tF32\t\t\t\t}",
   chars! "\t\t{\tCategory\t\tU8\t\t\t\t}",
   chars! "\t\t{\tAuthBuyerID\t\tLLUUID\t\t\t}",
   chars! "\t\t{\tSnapshotID\t\tLLUUID\t\t\t}",
   chars! "\t\t{\tUserLocation\tLLVector3\t\t}",
   chars! "\t\t{\tUserLookAt\t\tLLVector3\t\t}",
   chars! "\t\t{\tLandingType\t\tU8\t\t\t\t}",
   chars! "\t}",
   chars! "}"]

/-- `ParcelPropertiesUpdate` as the parser creates it. -/
def r234 : RawTemplate :=
  ⟨"ParcelPropertiesUpdate", .low, 198, [255, 255, 198], some .notTrusted, some .zerocoded, some .notDeprecated,
    [⟨"ParcelData", .single, 0, [⟨"LandingType", some .u8, some 1⟩, ⟨"UserLookAt", some .vector3, some 12⟩, ⟨"UserLocation", some .vector3, some 12⟩, ⟨"SnapshotID", some .uuid, some 16⟩, ⟨"AuthBuyerID", some .uuid, some 16⟩, ⟨"Category", some .u8, some 1⟩, ⟨"PassHours", some .f32, some 4⟩, ⟨"PassPrice", some .s32, some 4⟩, ⟨"GroupID", some .uuid, some 16⟩, ⟨"MediaAutoScale", some .u8, some 1⟩, ⟨"MediaID", some .uuid, some 16⟩, ⟨"MediaURL", some .variable, some 1⟩, ⟨"MusicURL", some .variable, some 1⟩, ⟨"Desc", some .variable, some 1⟩, ⟨"Name", some .variable, some 1⟩, ⟨"SalePrice", some .s32, some 4⟩, ⟨"ParcelFlags", some .u32, some 4⟩, ⟨"Flags", some .u32, some 4⟩, ⟨"LocalID", some .s32, some 4⟩]⟩,
     ⟨"AgentData", .single, 0, [⟨"SessionID", some .uuid, some 16⟩, ⟨"AgentID", some .uuid, some 16⟩]⟩]⟩

/-- `ParcelPropertiesUpdate` in file order. -/
def t234 : Template :=
  ⟨"ParcelPropertiesUpdate", .low, 198, [], some .notTrusted, some .zerocoded, some .notDeprecated,
    [⟨"AgentData", .single, 0, [⟨"AgentID", .uuid, 16⟩, ⟨"SessionID", .uuid, 16⟩]⟩,
     ⟨"ParcelData", .single, 0, [⟨"LocalID", .s32, 4⟩, ⟨"Flags", .u32, 4⟩, ⟨"ParcelFlags", .u32, 4⟩, ⟨"SalePrice", .s32, 4⟩, ⟨"Name", .variable, 1⟩, ⟨"Desc", .variable, 1⟩, ⟨"MusicURL", .variable, 1⟩, ⟨"MediaURL", .variable, 1⟩, ⟨"MediaID", .uuid, 16⟩, ⟨"MediaAutoScale", .u8, 1⟩, ⟨"GroupID", .uuid, 16⟩, ⟨"PassPrice", .s32, 4⟩, ⟨"PassHours", .f32, 4⟩, ⟨"Category", .u8, 1⟩, ⟨"AuthBuyerID", .uuid, 16⟩, ⟨"SnapshotID", .uuid, 16⟩, ⟨"UserLocation", .vector3, 12⟩, ⟨"UserLookAt", .vector3, 12⟩, ⟨"LandingType", .u8, 1⟩]⟩]⟩

theorem p234 : ChunkOk c234 r234 := by intro v older; kernel_rfl
theorem k234 : r234.known = some t234 := by kernel_rfl
theorem n234 : t234.name = String.ofList ['P', 'a', 'r', 'c', 'e', 'l', 'P', 'r', 'o', 'p', 'e', 'r', 't', 'i', 'e', 's', 'U', 'p', 'd', 'a', 't', 'e'] := by kernel_rfl

/-- The names of the blocks and variables of `ParcelPropertiesUpdate`. -/
def b234 : List (List Char × List (List Char)) :=
  [(['A', 'g', 'e', 'n', 't', 'D', 'a', 't', 'a'], [['A', 'g', 'e', 'n', 't', 'I', 'D'], ['S', 'e', 's', 's', 'i', 'o', 'n', 'I', 'D']]),
   (['P', 'a', 'r', 'c', 'e', 'l', 'D', 'a', 't', 'a'], [['L', 'o', 'c', 'a', 'l', 'I', 'D'], ['F', 'l', 'a', 'g', 's'], ['P', 'a', 'r', 'c', 'e', 'l', 'F', 'l', 'a', 'g', 's'], ['S', 'a', 'l', 'e', 'P', 'r', 'i', 'c', 'e'], ['N', 'a', 'm', 'e'], ['D', 'e', 's', 'c'], ['M', 'u', 's', 'i', 'c', 'U', 'R', 'L'], ['M', 'e', 'd', 'i', 'a', 'U', 'R', 'L'], ['M', 'e', 'd', 'i', 'a', 'I', 'D'], ['M', 'e', 'd', 'i', 'a', 'A', 'u', 't', 'o', 'S', 'c', 'a', 'l', 'e'], ['G', 'r', 'o', 'u', 'p', 'I', 'D'], ['P', 'a', 's', 's', 'P', 'r', 'i', 'c', 'e'], ['P', 'a', 's', 's', 'H', 'o', 'u', 'r', 's'], ['C', 'a', 't', 'e', 'g', 'o', 'r', 'y'], ['A', 'u', 't', 'h', 'B', 'u', 'y', 'e', 'r', 'I', 'D'], ['S', 'n', 'a', 'p', 's', 'h', 'o', 't', 'I', 'D'], ['U', 's', 'e', 'r', 'L', 'o', 'c', 'a', 't', 'i', 'o', 'n'], ['U', 's', 'e', 'r', 'L', 'o', 'o', 'k', 'A', 't'], ['L', 'a', 'n', 'd', 'i', 'n', 'g', 'T', 'y', 'p', 'e']])]

theorem w234 : Checked t234 := ⟨b234, by kernel_rfl, by kernel_rfl, by kernel_rfl⟩

/-- Lines of `message_template.msg` up to the end of `ParcelReturnObjects`. -/
def c235 : List (List Char) :=
  [chars! "",
   chars! "// ParcelReturnObjects",
   chars! "// viewer -> sim",
   chars! "// reliable",
   chars! "{",
   chars! "\tParcelReturnObjects Low 199 NotTrusted Zerocoded",
   chars! "\t{",
   chars! "\t\tAgentData\t\t\tSingle",
   chars! "\t\t{\tAgentID\t\t\tLLUUID\t}",
   chars! "\t\t{\tSessionID\t\tLLUUID\t}",
   chars! "\t}",
   chars! "\t{",
   chars! "\t\tParcelData\t\t\tSingle",
   chars! "\t\t{\tLocalID\t\t\tS32\t\t\t\t}",
   chars! "\t\t{\tReturnType\t\tU32\t\t\t\t}",
   chars! "\t}",
   chars! "\t{",
   chars! "\t\tTaskIDs\t\t\tVariable",
   chars! "\t\t{\tTaskID\t\t\tLLUUID\t\t\t}",
   chars! "\t}",
   chars! "\t{",
   chars! "\t\tOwnerIDs\t\t\tVariable",
   chars! "\t\t{\tOwnerID\t\t\tLLUUID\t\t\t}",
   chars! "\t}",
   chars! "}"]

/-- `ParcelReturnObjects` as the parser creates it. -/
def r235 : RawTemplate :=
  ⟨"ParcelReturnObjects", .low, 199, [255, 255, 199], some .notTrusted, some .zerocoded, some .notDeprecated,
    [⟨"OwnerIDs", .variable, 0, [⟨"OwnerID", some .uuid, some 16⟩]⟩,
     ⟨"TaskIDs", .variable, 0, [⟨"TaskID", some .uuid, some 16⟩]⟩,
     ⟨"ParcelData", .single, 0, [⟨"ReturnType", some .u32, some 4⟩, ⟨"LocalID", some .s32, some 4⟩]⟩,
     ⟨"AgentData", .single, 0, [⟨"SessionID", some .uuid, some 16⟩, ⟨"AgentID", some .uuid, some 16⟩]⟩]⟩

/-- `ParcelReturnObjects` in file order. -/
def t235 : Template :=
  ⟨"ParcelReturnObjects", .low, 199, [], some .notTrusted, some .zerocoded, some .notDeprecated,
    [⟨"AgentData", .single, 0, [⟨"AgentID", .uuid, 16⟩, ⟨"SessionID", .uuid, 16⟩]⟩,
     ⟨"ParcelData", .single, 0, [⟨"LocalID", .s32, 4⟩, ⟨"ReturnType", .u32, 4⟩]⟩,
     ⟨"TaskIDs", .variable, 0, [⟨"TaskID", .uuid, 16⟩]⟩,
     ⟨"OwnerIDs", .variable, 0, [⟨"OwnerID", .uuid, 16⟩]⟩]⟩

theorem p235 : ChunkOk c235 r235 := by intro v older; kernel_rfl
theorem k235 : r235.known = some t235 := by kernel_rfl
theorem n235 : t235.name = String.ofList ['P', 'a', 'r', 'c', 'e', 'l', 'R', 'e', 't', 'u', 'r', 'n', 'O', 'b', 'j', 'e', 'c', 't', 's'] := by kernel_rfl

/-- The names of the blocks and variables of `ParcelReturnObjects`. -/
def b235 : List (List Char × List (List Char)) :=
  [(['A', 'g', 'e', 'n', 't', 'D', 'a', 't', 'a'], [['A', 'g', 'e', 'n', 't', 'I', 'D'], ['S', 'e', 's', 's', 'i', 'o', 'n', 'I', 'D']]),
   (['P', 'a', 'r', 'c', 'e', 'l', 'D', 'a', 't', 'a'], [['L', 'o', 'c', 'a', 'l', 'I', 'D'], ['R', 'e', 't', 'u', 'r', 'n', 'T', 'y', 'p', 'e']]),
   (['T', 'a', 's', 'k', 'I', 'D', 's'], [['T', 'a', 's', 'k', 'I', 'D']]),
   (['O', 'w', 'n', 'e', 'r', 'I', 'D', 's'], [['O', 'w', 'n', 'e', 'r', 'I', 'D']])]

theorem w235 : Checked t235 := ⟨b235, by kernel_rfl, by kernel_rfl, by kernel_rfl⟩

/-- Lines of `message_template.msg` up to the end of `ParcelSetOtherCleanTime`. -/
def c236 : List (List Char) :=
  [chars! "",
   chars! "// ParcelSetOtherCleanTime",
   chars! "// viewer -> sim",
   chars! "// reliable",
   chars! "{",
   chars! "\tParcelSetOtherCleanTime Low 200 NotTrusted Zerocoded",
   chars! "\t{",
   chars! "\t\tAgentData\t\t\tSingle",
   chars! "\t\t{\tAgentID\t\t\tLLUUID\t}",
   chars! "\t\t{\tSessionID\t\tLLUUID\t}",
   chars! "\t}",
   chars! "\t{",
   chars! "\t\tParcelData\t\t\tSingle",
   chars! "\t\t{\tLocalID\t\t\tS32\t\t\t\t}",
   chars! "\t\t{\tOtherCleanTime\tS32\t\t\t\t}",
   chars! "\t}",
   chars! "}"]

/-- `ParcelSetOtherCleanTime` as the parser creates it. -/
def r236 : RawTemplate :=
  ⟨"ParcelSetOtherCleanTime", .low, 200, [255, 255, 200], some .notTrusted, some .zerocoded, some .notDeprecated,
    [⟨"ParcelData", .single, 0, [⟨"OtherCleanTime", some .s32, some 4⟩, ⟨"LocalID", some .s32, some 4⟩]⟩,
     ⟨"AgentData", .single, 0, [⟨"SessionID", some .uuid, some 16⟩, ⟨"AgentID", some .uuid, some 16⟩]⟩]⟩

/-- `ParcelSetOtherCleanTime` in file order. -/
def t236 : Template :=
  ⟨"ParcelSetOtherCleanTime", .low, 200, [], some .notTrusted, some .zerocoded, some .notDeprecated,
    [⟨"AgentData", .single, 0, [⟨"AgentID", .uuid, 16⟩, ⟨"SessionID", .uuid, 16⟩]⟩,
     ⟨"ParcelData", .single, 0, [⟨"LocalID", .s32, 4⟩, ⟨"OtherCleanTime", .s32, 4⟩]⟩]⟩

theorem p236 : ChunkOk c236 r236 := by intro v older; kernel_rfl
theorem k236 : r236.known = some t236 := by kernel_rfl
theorem n236 : t236.name = String.ofList ['P', 'a', 'r', 'c', 'e', 'l', 'S', 'e', 't', 'O', 't', 'h', 'e', 'r', 'C', 'l', 'e', 'a', 'n', 'T', 'i', 'm', 'e'] := by kernel_rfl

/-- The names of the blocks and variables of `ParcelSetOtherCleanTime`. -/
def b236 : List (List Char × List (List Char)) :=
  [(['A', 'g', 'e', 'n', 't', 'D', 'a', 't', 'a'], [['A', 'g', 'e', 'n', 't', 'I', 'D'], ['S', 'e', 's', 's', 'i', 'o', 'n', 'I', 'D']]),
   (['P', 'a', 'r', 'c', 'e', 'l', 'D', 'a', 't', 'a'], [['L', 'o', 'c', 'a', 'l', 'I', 'D'], ['O', 't', 'h', 'e', 'r', 'C', 'l', 'e', 'a', 'n', 'T', 'i', 'm', 'e']])]

theorem w236 : Checked t236 := ⟨b236, by kernel_rfl, by kernel_rfl, by kernel_rfl⟩

/-- Lines of `message_template.msg` up to the end of `ParcelDisableObjects`. -/
def c237 : List (List Char) :=
  [chars! "",
   chars! "",
   chars! "// Disable makes objects nonphysical and turns off their scripts.",
   chars! "// ParcelDisableObjects",
   chars! "// viewer -> sim",
   chars! "// reliable",
   chars! "{",
   chars! "\tParcelDisableObjects Low 201 NotTrusted Zerocoded",
   chars! "\t{",
   chars! "\t\tAgentData\t\t\tSingle",
   chars! "\t\t{\tAgentID\t\t\tLLUUID\t}",
   chars! "\t\t{\tSessionID\t\tLLUUID\t}",
   chars! "\t}",
   chars! "\t{",
   chars! "\t\tParcelData\t\t\tSingle",
   chars! "\t\t{\tLocalID\t\t\tS32\t\t\t\t}",
   chars! "\t\t{\tReturnType\t\tU32\t\t\t\t}",
   chars! "\t}",
   chars! "\t{",
   chars! "\t\tTaskIDs\t\t\tVariable",
   chars! "\t\t{\tTaskID\t\t\tLLUUID\t\t\t}",
   chars! "\t}",
   chars! "\t{",
   chars! "\t\tOwnerIDs\t\t\tVariable",
   chars! "\t\t{\tOwnerID\t\t\tLLUUID\t\t\t}",
   chars! "\t}",
   chars! "}"]

/-- `ParcelDisableObjects` as the parser creates it. -/
def r237 : RawTemplate :=
  ⟨"ParcelDisableObjects", .low, 201, [255, 255, 201], some .notTrusted, some .zerocoded, some .notDeprecated,
    [⟨"OwnerIDs", .variable, 0, [⟨"OwnerID", some .uuid, some 16⟩]⟩,
     ⟨"TaskIDs", .variable, 0, [⟨"TaskID", some .uuid, some 16⟩]⟩,
     ⟨"ParcelData", .single, 0, [⟨"ReturnType", some .u32, some 4⟩, ⟨"LocalID", some .s32, some 4⟩]⟩,
     ⟨"AgentData", .single, 0, [⟨"SessionID", some .uuid, some 16⟩, ⟨"AgentID", some .uuid, some 16⟩]⟩]⟩

/-- `ParcelDisableObjects` in file order. -/
def t237 : Template :=
  ⟨"ParcelDisableObjects", .low, 201, [], some .notTrusted, some .zerocoded, some .notDeprecated,
    [⟨"AgentData", .single, 0, [⟨"AgentID", .uuid, 16⟩, ⟨"SessionID", .uuid, 16⟩]⟩,
     ⟨"ParcelData", .single, 0, [⟨"LocalID", .s32, 4⟩, ⟨"ReturnType", .u32, 4⟩]⟩,
     ⟨"TaskIDs", .variable, 0, [⟨"TaskID", .uuid, 16⟩]⟩,
     ⟨"OwnerIDs", .variable, 0, [⟨"OwnerID", .uuid, 16⟩]⟩]⟩

theorem p237 : ChunkOk c237 r237 := by intro v older; kernel_rfl
theorem k237 : r237.known = some t237 := by kernel_rfl
theorem n237 : t237.name = String.ofList ['P', 'a', 'r', 'c', 'e', 'l', 'D', 'i', 's', 'a', 'b', 'l', 'e', 'O', 'b', 'j', 'e', 'c', 't', 's'] := by kernel_rfl

/-- The names of the blocks and variables of `ParcelDisableObjects`. -/
def b237 : List (List Char × List (List Char)) :=
  [(['A', 'g', 'e', 'n', 't', 'D', 'a', 't', 'a'], [['A', 'g', 'e', 'n', 't', 'I', 'D'], ['S', 'e', 's', 's', 'i', 'o', 'n', 'I', 'D']]),
   (['P', 'a', 'r', 'c', 'e', 'l', 'D', 'a', 't', 'a'], [['L', 'o', 'c', 'a', 'l', 'I', 'D'], ['R', 'e', 't', 'u', 'r', 'n', 'T', 'y', 'p', 'e']]),
   (['T', 'a', 's', 'k', 'I', 'D', 's'], [['T', 'a', 's', 'k', 'I', 'D']]),
   (['O', 'w', 'n', 'e', 'r', 'I', 'D', 's'], [['O', 'w', 'n', 'e', 'r', 'I', 'D']])]

theorem w237 : Checked t237 := ⟨b237, by kernel_rfl, by kernel_rfl, by kernel_rfl⟩

/-- Lines of `message_template.msg` up to the end of `ParcelSelectObjects`. -/
def c238 : List (List Char) :=
  [chars! "",
   chars! "",
   chars! "// ParcelSelectObjects",
   chars! "// viewer -> sim",
   chars! "// reliable",
   chars! "{",
   chars! "\tParcelSelectObjects Low 202 NotTrusted Zerocoded",
   chars! "\t{",
   chars! "\t\tAgentData\t\t\tSingle",
   chars! "\t\t{\tAgentID\t\t\tLLUUID\t}",
   chars! "\t\t{\tSessionID\t\tLLUUID\t}",
   chars! "\t}",
   chars! "\t{",
   chars! "\t\tParcelData\t\t\tSingle",
   chars! "\t\t{\tLocalID\t\t\tS32\t\t\t\t}",
   chars! "\t\t{\tReturnType\t\tU32\t\t\t\t}",
   chars! "\t}",
   chars! "\t{",
   chars! "\t\tReturnIDs\t\t\tVariable",
   chars! "\t\t{\tReturnID\t\tLLUUID\t}",
   chars! "\t}",
   chars! "}"]

/-- `ParcelSelectObjects` as the parser creates it. -/
def r238 : RawTemplate :=
  ⟨"ParcelSelectObjects", .low, 202, [255, 255, 202], some .notTrusted, some .zerocoded, some .notDeprecated,
    [⟨"ReturnIDs", .variable, 0, [⟨"ReturnID", some .uuid, some 16⟩]⟩,
     ⟨"ParcelData", .single, 0, [⟨"ReturnType", some .u32, some 4⟩, ⟨"LocalID", some .s32, some 4⟩]⟩,
     ⟨"AgentData", .single, 0, [⟨"SessionID", some .uuid, some 16⟩, ⟨"AgentID", some .uuid, some 16⟩]⟩]⟩

/-- `ParcelSelectObjects` in file order. -/
def t238 : Template :=
  ⟨"ParcelSelectObjects", .low, 202, [], some .notTrusted, some .zerocoded, some .notDeprecated,
    [⟨"AgentData", .single, 0, [⟨"AgentID", .uuid, 16⟩, ⟨"SessionID", .uuid, 16⟩]⟩,
     ⟨"ParcelData", .single, 0, [⟨"LocalID", .s32, 4⟩, ⟨"ReturnType", .u32, 4⟩]⟩,
     ⟨"ReturnIDs", .variable, 0, [⟨"ReturnID", .uuid, 16⟩]⟩]⟩

theorem p238 : ChunkOk c238 r238 := by intro v older; kernel_rfl
theorem k238 : r238.known = some t238 := by kernel_rfl
theorem n238 : t238.name = String.ofList ['P', 'a', 'r', 'c', 'e', 'l', 'S', 'e', 'l', 'e', 'c', 't', 'O', 'b', 'j', 'e', 'c', 't', 's'] := by kernel_rfl

/-- The names of the blocks and variables of `ParcelSelectObjects`. -/
def b238 : List (List Char × List (List Char)) :=
  [(['A', 'g', 'e', 'n', 't', 'D', 'a', 't', 'a'], [['A', 'g', 'e', 'n', 't', 'I', 'D'], ['S', 'e', 's', 's', 'i', 'o', 'n', 'I', 'D']]),
   (['P', 'a', 'r', 'c', 'e', 'l', 'D', 'a', 't', 'a'], [['L', 'o', 'c', 'a', 'l', 'I', 'D'], ['R', 'e', 't', 'u', 'r', 'n', 'T', 'y', 'p', 'e']]),
   (['R', 'e', 't', 'u', 'r', 'n', 'I', 'D', 's'], [['R', 'e', 't', 'u', 'r', 'n', 'I', 'D']])]

theorem w238 : Checked t238 := ⟨b238, by kernel_rfl, by kernel_rfl, by kernel_rfl⟩

/-- Lines of `message_template.msg` up to the end of `EstateCovenantRequest`. -/
def c239 : List (List Char) :=
  [chars! "",
   chars! "",
   chars! "// EstateCovenantRequest",
   chars! "// viewer -> sim",
   chars! "// reliable",
   chars! "{",
   chars! "    EstateCovenantRequest Low 203 NotTrusted Unencoded",
   chars! "\t{",
   chars! "\t\tAgentData\t\t\tSingle",
   chars! "\t\t{\tAgentID\t\t\tLLUUID\t}",
   chars! "\t\t{\tSessionID\t\tLLUUID\t}",
   chars! "\t}",
   chars! "}"]

/-- `EstateCovenantRequest` as the parser creates it. -/
def r239 : RawTemplate :=
  ⟨"EstateCovenantRequest", .low, 203, [255, 255, 203], some .notTrusted, some .unencoded, some .notDeprecated,
    [⟨"AgentData", .single, 0, [⟨"SessionID", some .uuid, some 16⟩, ⟨"AgentID", some .uuid, some 16⟩]⟩]⟩

/-- `EstateCovenantRequest` in file order. -/
def t239 : Template :=
  ⟨"EstateCovenantRequest", .low, 203, [], some .notTrusted, some .unencoded, some .notDeprecated,
    [⟨"AgentData", .single, 0, [⟨"AgentID", .uuid, 16⟩, ⟨"SessionID", .uuid, 16⟩]⟩]⟩

theorem p239 : ChunkOk c239 r239 := by intro v older; kernel_rfl
theorem k239 : r239.known = some t239 := by kernel_rfl
theorem n239 : t239.name = String.ofList ['E', 's', 't', 'a', 't', 'e', 'C', 'o', 'v', 'e', 'n', 'a', 'n', 't', 'R', 'e', 'q', 'u', 'e', 's', 't'] := by kernel_rfl

/-- The names of the blocks and variables of `EstateCovenantRequest`. -/
def b239 : List (List Char × List (List Char)) :=
  [(['A', 'g', 'e', 'n', 't', 'D', 'a', 't', 'a'], [['A', 'g', 'e', 'n', 't', 'I', 'D'], ['S', 'e', 's', 's', 'i', 'o', 'n', 'I', 'D']])]

theorem w239 : Checked t239 := ⟨b239, by kernel_rfl, by kernel_rfl, by kernel_rfl⟩

/-- Part 4 of the file. -/
def lines4 : List (List (List Char)) := [c180, c181, c182, c183, c184, c185, c186, c187, c188, c189, c190, c191, c192, c193, c194, c195, c196, c197, c198, c199, c200, c201, c202, c203, c204, c205, c206, c207, c208, c209, c210, c211, c212, c213, c214, c215, c216, c217, c218, c219, c220, c221, c222, c223, c224, c225, c226, c227, c228, c229, c230, c231, c232, c233, c234, c235, c236, c237, c238, c239]

/-- Part 4 of the templates, as parsed. -/
def raws4 : List RawTemplate := [r180, r181, r182, r183, r184, r185, r186, r187, r188, r189, r190, r191, r192, r193, r194, r195, r196, r197, r198, r199, r200, r201, r202, r203, r204, r205, r206, r207, r208, r209, r210, r211, r212, r213, r214, r215, r216, r217, r218, r219, r220, r221, r222, r223, r224, r225, r226, r227, r228, r229, r230, r231, r232, r233, r234, r235, r236, r237, r238, r239]

/-- Part 4 of the templates. -/
def templates4 : List Template := [t180, t181, t182, t183, t184, t185, t186, t187, t188, t189, t190, t191, t192, t193, t194, t195, t196, t197, t198, t199, t200, t201, t202, t203, t204, t205, t206, t207, t208, t209, t210, t211, t212, t213, t214, t215, t216, t217, t218, t219, t220, t221, t222, t223, t224, t225, t226, t227, t228, t229, t230, t231, t232, t233, t234, t235, t236, t237, t238, t239]

/-- The names in part 4. -/
def names4 : List (List Char) :=
  [['T', 'r', 'a', 'n', 's', 'f', 'e', 'r', 'I', 'n', 'f', 'o'],
   ['T', 'r', 'a', 'n', 's', 'f', 'e', 'r', 'P', 'a', 'c', 'k', 'e', 't'],
   ['T', 'r', 'a', 'n', 's', 'f', 'e', 'r', 'A', 'b', 'o', 'r', 't'],
   ['R', 'e', 'q', 'u', 'e', 's', 't', 'X', 'f', 'e', 'r'],
   ['S', 'e', 'n', 'd', 'X', 'f', 'e', 'r', 'P', 'a', 'c', 'k', 'e', 't'],
   ['C', 'o', 'n', 'f', 'i', 'r', 'm', 'X', 'f', 'e', 'r', 'P', 'a', 'c', 'k', 'e', 't'],
   ['A', 'b', 'o', 'r', 't', 'X', 'f', 'e', 'r'],
   ['A', 'v', 'a', 't', 'a', 'r', 'A', 'n', 'i', 'm', 'a', 't', 'i', 'o', 'n'],
   ['A', 'v', 'a', 't', 'a', 'r', 'A', 'p', 'p', 'e', 'a', 'r', 'a', 'n', 'c', 'e'],
   ['A', 'v', 'a', 't', 'a', 'r', 'S', 'i', 't', 'R', 'e', 's', 'p', 'o', 'n', 's', 'e'],
   ['S', 'e', 't', 'F', 'o', 'l', 'l', 'o', 'w', 'C', 'a', 'm', 'P', 'r', 'o', 'p', 'e', 'r', 't', 'i', 'e', 's'],
   ['C', 'l', 'e', 'a', 'r', 'F', 'o', 'l', 'l', 'o', 'w', 'C', 'a', 'm', 'P', 'r', 'o', 'p', 'e', 'r', 't', 'i', 'e', 's'],
   ['C', 'a', 'm', 'e', 'r', 'a', 'C', 'o', 'n', 's', 't', 'r', 'a', 'i', 'n', 't'],
   ['O', 'b', 'j', 'e', 'c', 't', 'P', 'r', 'o', 'p', 'e', 'r', 't', 'i', 'e', 's'],
   ['O', 'b', 'j', 'e', 'c', 't', 'P', 'r', 'o', 'p', 'e', 'r', 't', 'i', 'e', 's', 'F', 'a', 'm', 'i', 'l', 'y'],
   ['R', 'e', 'q', 'u', 'e', 's', 't', 'P', 'a', 'y', 'P', 'r', 'i', 'c', 'e'],
   ['P', 'a', 'y', 'P', 'r', 'i', 'c', 'e', 'R', 'e', 'p', 'l', 'y'],
   ['K', 'i', 'c', 'k', 'U', 's', 'e', 'r'],
   ['K', 'i', 'c', 'k', 'U', 's', 'e', 'r', 'A', 'c', 'k'],
   ['G', 'o', 'd', 'K', 'i', 'c', 'k', 'U', 's', 'e', 'r'],
   ['S', 'y', 's', 't', 'e', 'm', 'K', 'i', 'c', 'k', 'U', 's', 'e', 'r'],
   ['E', 'j', 'e', 'c', 't', 'U', 's', 'e', 'r'],
   ['F', 'r', 'e', 'e', 'z', 'e', 'U', 's', 'e', 'r'],
   ['A', 'v', 'a', 't', 'a', 'r', 'P', 'r', 'o', 'p', 'e', 'r', 't', 'i', 'e', 's', 'R', 'e', 'q', 'u', 'e', 's', 't'],
   ['A', 'v', 'a', 't', 'a', 'r', 'P', 'r', 'o', 'p', 'e', 'r', 't', 'i', 'e', 's', 'R', 'e', 'q', 'u', 'e', 's', 't', 'B', 'a', 'c', 'k', 'e', 'n', 'd'],
   ['A', 'v', 'a', 't', 'a', 'r', 'P', 'r', 'o', 'p', 'e', 'r', 't', 'i', 'e', 's', 'R', 'e', 'p', 'l', 'y'],
   ['A', 'v', 'a', 't', 'a', 'r', 'I', 'n', 't', 'e', 'r', 'e', 's', 't', 's', 'R', 'e', 'p', 'l', 'y'],
   ['A', 'v', 'a', 't', 'a', 'r', 'G', 'r', 'o', 'u', 'p', 's', 'R', 'e', 'p', 'l', 'y'],
   ['A', 'v', 'a', 't', 'a', 'r', 'P', 'r', 'o', 'p', 'e', 'r', 't', 'i', 'e', 's', 'U', 'p', 'd', 'a', 't', 'e'],
   ['A', 'v', 'a', 't', 'a', 'r', 'I', 'n', 't', 'e', 'r', 'e', 's', 't', 's', 'U', 'p', 'd', 'a', 't', 'e'],
   ['A', 'v', 'a', 't', 'a', 'r', 'N', 'o', 't', 'e', 's', 'R', 'e', 'p', 'l', 'y'],
   ['A', 'v', 'a', 't', 'a', 'r', 'N', 'o', 't', 'e', 's', 'U', 'p', 'd', 'a', 't', 'e'],
   ['A', 'v', 'a', 't', 'a', 'r', 'P', 'i', 'c', 'k', 's', 'R', 'e', 'p', 'l', 'y'],
   ['E', 'v', 'e', 'n', 't', 'I', 'n', 'f', 'o', 'R', 'e', 'q', 'u', 'e', 's', 't'],
   ['E', 'v', 'e', 'n', 't', 'I', 'n', 'f', 'o', 'R', 'e', 'p', 'l', 'y'],
   ['E', 'v', 'e', 'n', 't', 'N', 'o', 't', 'i', 'f', 'i', 'c', 'a', 't', 'i', 'o', 'n', 'A', 'd', 'd', 'R', 'e', 'q', 'u', 'e', 's', 't'],
   ['E', 'v', 'e', 'n', 't', 'N', 'o', 't', 'i', 'f', 'i', 'c', 'a', 't', 'i', 'o', 'n', 'R', 'e', 'm', 'o', 'v', 'e', 'R', 'e', 'q', 'u', 'e', 's', 't'],
   ['E', 'v', 'e', 'n', 't', 'G', 'o', 'd', 'D', 'e', 'l', 'e', 't', 'e'],
   ['P', 'i', 'c', 'k', 'I', 'n', 'f', 'o', 'R', 'e', 'p', 'l', 'y'],
   ['P', 'i', 'c', 'k', 'I', 'n', 'f', 'o', 'U', 'p', 'd', 'a', 't', 'e'],
   ['P', 'i', 'c', 'k', 'D', 'e', 'l', 'e', 't', 'e'],
   ['P', 'i', 'c', 'k', 'G', 'o', 'd', 'D', 'e', 'l', 'e', 't', 'e'],
   ['S', 'c', 'r', 'i', 'p', 't', 'Q', 'u', 'e', 's', 't', 'i', 'o', 'n'],
   ['S', 'c', 'r', 'i', 'p', 't', 'C', 'o', 'n', 't', 'r', 'o', 'l', 'C', 'h', 'a', 'n', 'g', 'e'],
   ['S', 'c', 'r', 'i', 'p', 't', 'D', 'i', 'a', 'l', 'o', 'g'],
   ['S', 'c', 'r', 'i', 'p', 't', 'D', 'i', 'a', 'l', 'o', 'g', 'R', 'e', 'p', 'l', 'y'],
   ['F', 'o', 'r', 'c', 'e', 'S', 'c', 'r', 'i', 'p', 't', 'C', 'o', 'n', 't', 'r', 'o', 'l', 'R', 'e', 'l', 'e', 'a', 's', 'e'],
   ['R', 'e', 'v', 'o', 'k', 'e', 'P', 'e', 'r', 'm', 'i', 's', 's', 'i', 'o', 'n', 's'],
   ['L', 'o', 'a', 'd', 'U', 'R', 'L'],
   ['S', 'c', 'r', 'i', 'p', 't', 'T', 'e', 'l', 'e', 'p', 'o', 'r', 't', 'R', 'e', 'q', 'u', 'e', 's', 't'],
   ['P', 'a', 'r', 'c', 'e', 'l', 'O', 'v', 'e', 'r', 'l', 'a', 'y'],
   ['P', 'a', 'r', 'c', 'e', 'l', 'P', 'r', 'o', 'p', 'e', 'r', 't', 'i', 'e', 's', 'R', 'e', 'q', 'u', 'e', 's', 't'],
   ['P', 'a', 'r', 'c', 'e', 'l', 'P', 'r', 'o', 'p', 'e', 'r', 't', 'i', 'e', 's', 'R', 'e', 'q', 'u', 'e', 's', 't', 'B', 'y', 'I', 'D'],
   ['P', 'a', 'r', 'c', 'e', 'l', 'P', 'r', 'o', 'p', 'e', 'r', 't', 'i', 'e', 's'],
   ['P', 'a', 'r', 'c', 'e', 'l', 'P', 'r', 'o', 'p', 'e', 'r', 't', 'i', 'e', 's', 'U', 'p', 'd', 'a', 't', 'e'],
   ['P', 'a', 'r', 'c', 'e', 'l', 'R', 'e', 't', 'u', 'r', 'n', 'O', 'b', 'j', 'e', 'c', 't', 's'],
   ['P', 'a', 'r', 'c', 'e', 'l', 'S', 'e', 't', 'O', 't', 'h', 'e', 'r', 'C', 'l', 'e', 'a', 'n', 'T', 'i', 'm', 'e'],
   ['P', 'a', 'r', 'c', 'e', 'l', 'D', 'i', 's', 'a', 'b', 'l', 'e', 'O', 'b', 'j', 'e', 'c', 't', 's'],
   ['P', 'a', 'r', 'c', 'e', 'l', 'S', 'e', 'l', 'e', 'c', 't', 'O', 'b', 'j', 'e', 'c', 't', 's'],
   ['E', 's', 't', 'a', 't', 'e', 'C', 'o', 'v', 'e', 'n', 'a', 'n', 't', 'R', 'e', 'q', 'u', 'e', 's', 't']]

theorem parsed4 : List.Forall₂ ChunkOk lines4 raws4 :=
  (.cons p180 (.cons p181 (.cons p182 (.cons p183 (.cons p184 (.cons p185 (.cons p186 (.cons p187 (.cons p188 (.cons p189 (.cons p190 (.cons p191 (.cons p192 (.cons p193 (.cons p194 (.cons p195 (.cons p196 (.cons p197 (.cons p198 (.cons p199 (.cons p200 (.cons p201 (.cons p202 (.cons p203 (.cons p204 (.cons p205 (.cons p206 (.cons p207 (.cons p208 (.cons p209 (.cons p210 (.cons p211 (.cons p212 (.cons p213 (.cons p214 (.cons p215 (.cons p216 (.cons p217 (.cons p218 (.cons p219 (.cons p220 (.cons p221 (.cons p222 (.cons p223 (.cons p224 (.cons p225 (.cons p226 (.cons p227 (.cons p228 (.cons p229 (.cons p230 (.cons p231 (.cons p232 (.cons p233 (.cons p234 (.cons p235 (.cons p236 (.cons p237 (.cons p238 (.cons p239 .nil))))))))))))))))))))))))))))))))))))))))))))))))))))))))))))

theorem known4 : List.Forall₂ (fun r t => RawTemplate.known r = some t) raws4 templates4 :=
  (.cons k180 (.cons k181 (.cons k182 (.cons k183 (.cons k184 (.cons k185 (.cons k186 (.cons k187 (.cons k188 (.cons k189 (.cons k190 (.cons k191 (.cons k192 (.cons k193 (.cons k194 (.cons k195 (.cons k196 (.cons k197 (.cons k198 (.cons k199 (.cons k200 (.cons k201 (.cons k202 (.cons k203 (.cons k204 (.cons k205 (.cons k206 (.cons k207 (.cons k208 (.cons k209 (.cons k210 (.cons k211 (.cons k212 (.cons k213 (.cons k214 (.cons k215 (.cons k216 (.cons k217 (.cons k218 (.cons k219 (.cons k220 (.cons k221 (.cons k222 (.cons k223 (.cons k224 (.cons k225 (.cons k226 (.cons k227 (.cons k228 (.cons k229 (.cons k230 (.cons k231 (.cons k232 (.cons k233 (.cons k234 (.cons k235 (.cons k236 (.cons k237 (.cons k238 (.cons k239 .nil))))))))))))))))))))))))))))))))))))))))))))))))))))))))))))

theorem named4 : List.Forall₂ (fun (t : Template) w => t.name = String.ofList w) templates4 names4 :=
  (.cons n180 (.cons n181 (.cons n182 (.cons n183 (.cons n184 (.cons n185 (.cons n186 (.cons n187 (.cons n188 (.cons n189 (.cons n190 (.cons n191 (.cons n192 (.cons n193 (.cons n194 (.cons n195 (.cons n196 (.cons n197 (.cons n198 (.cons n199 (.cons n200 (.cons n201 (.cons n202 (.cons n203 (.cons n204 (.cons n205 (.cons n206 (.cons n207 (.cons n208 (.cons n209 (.cons n210 (.cons n211 (.cons n212 (.cons n213 (.cons n214 (.cons n215 (.cons n216 (.cons n217 (.cons n218 (.cons n219 (.cons n220 (.cons n221 (.cons n222 (.cons n223 (.cons n224 (.cons n225 (.cons n226 (.cons n227 (.cons n228 (.cons n229 (.cons n230 (.cons n231 (.cons n232 (.cons n233 (.cons n234 (.cons n235 (.cons n236 (.cons n237 (.cons n238 (.cons n239 .nil))))))))))))))))))))))))))))))))))))))))))))))))))))))))))))

theorem checked4 : ∀ t ∈ templates4, Checked t :=
  (List.forall_mem_cons.mpr ⟨w180, (List.forall_mem_cons.mpr ⟨w181, (List.forall_mem_cons.mpr ⟨w182, (List.forall_mem_cons.mpr ⟨w183, (List.forall_mem_cons.mpr ⟨w184, (List.forall_mem_cons.mpr ⟨w185, (List.forall_mem_cons.mpr ⟨w186, (List.forall_mem_cons.mpr ⟨w187, (List.forall_mem_cons.mpr ⟨w188, (List.forall_mem_cons.mpr ⟨w189, (List.forall_mem_cons.mpr ⟨w190, (List.forall_mem_cons.mpr ⟨w191, (List.forall_mem_cons.mpr ⟨w192, (List.forall_mem_cons.mpr ⟨w193, (List.forall_mem_cons.mpr ⟨w194, (List.forall_mem_cons.mpr ⟨w195, (List.forall_mem_cons.mpr ⟨w196, (List.forall_mem_cons.mpr ⟨w197, (List.forall_mem_cons.mpr ⟨w198, (List.forall_mem_cons.mpr ⟨w199, (List.forall_mem_cons.mpr ⟨w200, (List.forall_mem_cons.mpr ⟨w201, (List.forall_mem_cons.mpr ⟨w202, (List.forall_mem_cons.mpr ⟨w203, (List.forall_mem_cons.mpr ⟨w204, (List.forall_mem_cons.mpr ⟨w205, (List.forall_mem_cons.mpr ⟨w206, (List.forall_mem_cons.mpr ⟨w207, (List.forall_mem_cons.mpr ⟨w208, (List.forall_mem_cons.mpr ⟨w209, (List.forall_mem_cons.mpr ⟨w210, (List.forall_mem_cons.mpr ⟨w211, (List.forall_mem_cons.mpr ⟨w212, (List.forall_mem_cons.mpr ⟨w213, (List.forall_mem_cons.mpr ⟨w214, (List.forall_mem_cons.mpr ⟨w215, (List.forall_mem_cons.mpr ⟨w216, (List.forall_mem_cons.mpr ⟨w217, (List.forall_mem_cons.mpr ⟨w218, (List.forall_mem_cons.mpr ⟨w219, (List.forall_mem_cons.mpr ⟨w220, (List.forall_mem_cons.mpr ⟨w221, (List.forall_mem_cons.mpr ⟨w222, (List.forall_mem_cons.mpr ⟨w223, (List.forall_mem_cons.mpr ⟨w224, (List.forall_mem_cons.mpr ⟨w225, (List.forall_mem_cons.mpr ⟨w226, (List.forall_mem_cons.mpr ⟨w227, (List.forall_mem_cons.mpr ⟨w228, (List.forall_mem_cons.mpr ⟨w229, (List.forall_mem_cons.mpr ⟨w230, (List.forall_mem_cons.mpr ⟨w231, (List.forall_mem_cons.mpr ⟨w232, (List.forall_mem_cons.mpr ⟨w233, (List.forall_mem_cons.mpr ⟨w234, (List.forall_mem_cons.mpr ⟨w235, (List.forall_mem_cons.mpr ⟨w236, (List.forall_mem_cons.mpr ⟨w237, (List.forall_mem_cons.mpr ⟨w238, (List.forall_mem_cons.mpr ⟨w239, (List.forall_mem_nil _)⟩)⟩)⟩)⟩)⟩)⟩)⟩)⟩)⟩)⟩)⟩)⟩)⟩)⟩)⟩)⟩)⟩)⟩)⟩)⟩)⟩)⟩)⟩)⟩)⟩)⟩)⟩)⟩)⟩)⟩)⟩)⟩)⟩)⟩)⟩)⟩)⟩)⟩)⟩)⟩)⟩)⟩)⟩)⟩)⟩)⟩)⟩)⟩)⟩)⟩)⟩)⟩)⟩)⟩)⟩)⟩)⟩)⟩)⟩)⟩)

end Pyogp.Embedded
