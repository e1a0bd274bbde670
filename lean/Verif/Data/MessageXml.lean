import Verif.Data.Chars

/-! Generated by `tools/gen_xml.py` from the `messages` map of `message/data/message.xml`. -/

namespace Pyogp.Embedded

/-- Name and flavor of every entry; `none`: no flavor key. -/
def messageXml : DotXml :=
  [("PacketAck", some "template"),
   ("OpenCircuit", some "template"),
   ("CloseCircuit", some "template"),
   ("StartPingCheck", some "template"),
   ("CompletePingCheck", some "template"),
   ("AddCircuitCode", some "template"),
   ("UseCircuitCode", some "template"),
   ("CreateTrustedCircuit", some "template"),
   ("RequestTrustedCircuit", some "template"),
   ("ReportAutosaveCrash", some "template"),
   ("SetCPURatio", some "template"),
   ("CompleteAgentMovement", some "template"),
   ("EconomyDataRequest", some "template"),
   ("ViewerEffect", some "template"),
   ("RegionHandshakeReply", some "template"),
   ("AgentUpdate", some "template"),
   ("ImagePacket", some "template"),
   ("LayerData", some "template"),
   ("ObjectUpdateCached", some "template"),
   ("ObjectUpdateCompressed", some "template"),
   ("ObjectUpdate", some "template"),
   ("ImprovedTerseObjectUpdate", some "template"),
   ("AvatarAnimation", some "template"),
   ("AvatarAppearance", some "template"),
   ("GodKickUser", some "llsd"),
   ("RoutedMoneyBalanceReply", some "llsd"),
   ("EdgeDataPacket", some "template"),
   ("CoarseLocationUpdate", some "template"),
   ("SimulatorLoad", some "template"),
   ("EstablishAgentCommunication", some "llsd"),
   ("AgentGroupDataUpdate", some "llsd"),
   ("AgentDropGroup", some "llsd"),
   ("ChatterBoxSessionStartReply", some "llsd"),
   ("ChatterBoxSessionEventReply", some "llsd"),
   ("ForceCloseChatterBoxSession", some "llsd"),
   ("ChatterBoxSessionAgentListUpdates", some "llsd"),
   ("ChatterBoxSessionUpdate", some "llsd"),
   ("ChatterBoxInvitation", some "llsd"),
   ("ParcelVoiceInfoRequest", some "llsd"),
   ("ParcelVoiceInfo", some "llsd"),
   ("ParcelObjectOwnersReply", some "llsd"),
   ("ParcelProperties", some "llsd"),
   ("LandStatReply", some "llsd"),
   ("PlacesReply", some "llsd"),
   ("DirLandReply", some "llsd"),
   ("avatarnotesrequest", none),
   ("avatarclassifiedsrequest", none),
   ("avatarpicksrequest", none),
   ("pickinforequest", none),
   ("ProvisionVoiceAccountRequest", some "llsd"),
   ("RequiredVoiceVersion", some "llsd"),
   ("EnableSimulator", some "llsd"),
   ("TeleportFinish", some "llsd"),
   ("TeleportFailed", some "llsd"),
   ("CrossedRegion", some "llsd"),
   ("ScriptRunningReply", some "llsd"),
   ("StartGroupProposal", some "llsd"),
   ("FetchInventoryDescendents", some "template"),
   ("GroupProposalBallot", some "llsd"),
   ("RpcScriptRequestInboundForward", some "llsd")]

/-- The names without a flavor. -/
def flavorless : List (List Char) :=
  [['a', 'v', 'a', 't', 'a', 'r', 'n', 'o', 't', 'e', 's', 'r', 'e', 'q', 'u', 'e', 's', 't'],
   ['a', 'v', 'a', 't', 'a', 'r', 'c', 'l', 'a', 's', 's', 'i', 'f', 'i', 'e', 'd', 's', 'r', 'e', 'q', 'u', 'e', 's', 't'],
   ['a', 'v', 'a', 't', 'a', 'r', 'p', 'i', 'c', 'k', 's', 'r', 'e', 'q', 'u', 'e', 's', 't'],
   ['p', 'i', 'c', 'k', 'i', 'n', 'f', 'o', 'r', 'e', 'q', 'u', 'e', 's', 't']]

/-- Entries whose flavor is absent. -/
theorem flavorless_eq : (messageXml.filter (fun e => e.2.isNone)).map (·.1) = flavorless.map String.ofList := by kernel_rfl

/-- The names with a flavor other than `template`. -/
def bannedNames : List String := ["GodKickUser", "RoutedMoneyBalanceReply", "EstablishAgentCommunication", "AgentGroupDataUpdate", "AgentDropGroup", "ChatterBoxSessionStartReply", "ChatterBoxSessionEventReply", "ForceCloseChatterBoxSession", "ChatterBoxSessionAgentListUpdates", "ChatterBoxSessionUpdate", "ChatterBoxInvitation", "ParcelVoiceInfoRequest", "ParcelVoiceInfo", "ParcelObjectOwnersReply", "ParcelProperties", "LandStatReply", "PlacesReply", "DirLandReply", "ProvisionVoiceAccountRequest", "RequiredVoiceVersion", "EnableSimulator", "TeleportFinish", "TeleportFailed", "CrossedRegion", "ScriptRunningReply", "StartGroupProposal", "GroupProposalBallot", "RpcScriptRequestInboundForward"]

end Pyogp.Embedded
