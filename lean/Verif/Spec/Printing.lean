import Verif.Model.Printing

/-!
# What printing should give

The text of every exception, and when there is one.
-/

namespace Pyogp
namespace Spec

/-- A text is `unicode`. -/
def Unicode : Val → Prop
  | .uni _ => True
  | _ => False

/-- There is nothing in a text that is not ASCII. -/
def Ascii : Val → Prop
  | .bytes b => ∀ x ∈ b, x < 128
  | .uni cs => ∀ c ∈ cs, c.toNat < 128
  | _ => True

/-- Values that can be put together in one text: no `unicode`, or nothing but ASCII. -/
def Mixable (vs : List Val) : Prop := (∀ v ∈ vs, ¬ Unicode v) ∨ ∀ v ∈ vs, Ascii v

/-- A value as bytes. -/
def bytesOf : Val → Bytes
  | .bytes b => b
  | .uni cs => cs.map (fun c => UInt8.ofNat c.toNat)
  | .int i => lit (toString i)
  | .none => lit "None"
  | .type t => lit "<type '" ++ lit t.name ++ lit "'>"

/-- The attributes an exception shows. -/
def excShows : LibExc → List Val
  | .loginError e => [e]
  | .parseStartLoc _ => []
  | .httpError c m => [c, m]
  | .resourceNotFound u => [u]
  | .resourceError u c m me => [u, c, m, me]
  | .deserializerNotFound c => [c]
  | .credentialDeserializerNotFound p => [p]
  | .deserializationFailed p r => [p, r]
  | .messageTemplateNotFound c => [c]
  | .messageTemplateParsing c => [c]
  | .circuitNotFound h r => [h, r]
  | .messageBuilding l r => [l, r]
  | .messageSerialization l r => [l, r]
  | .messageDeserialization l r => [l, r]
  | .dataUnpacking d r => [d, r]
  | .regionSeedCap r => [r]
  | .regionMessage r => [r]
  | .dataParsing e => [e]
  | .notImplemented e => [e]
  | .deprecated t => [t]

/-- The text of an exception. -/
def excText : LibExc → Bytes
  | .loginError e => lit "Agent login error: " ++ bytesOf e
  | .parseStartLoc _ => lit "Invalid start location specified, using defaults in settings"
  | .httpError c m => bytesOf c ++ lit " " ++ bytesOf m
  | .resourceNotFound u => bytesOf u
  | .resourceError u c m me =>
    lit "Error using '" ++ bytesOf me ++ lit "' on resource '" ++ bytesOf u ++ lit "': " ++ bytesOf m ++ lit " (" ++ bytesOf c ++ lit ")"
  | .deserializerNotFound c => lit "deserialization for '" ++ bytesOf c ++ lit "' not supported"
  | .credentialDeserializerNotFound p => lit "deserialization for payload '" ++ bytesOf p ++ lit "' not supported"
  | .deserializationFailed p r => lit "deserialization failed for '" ++ bytesOf p ++ lit "', reason: '" ++ bytesOf r ++ lit "'"
  | .messageTemplateNotFound c => lit "No message template found, context: '" ++ bytesOf c ++ lit "'"
  | .messageTemplateParsing c => lit "Error parsing message template, context: '" ++ bytesOf c ++ lit "'"
  | .circuitNotFound h r => lit "No circuit to '" ++ bytesOf h ++ lit "' found, reason: '" ++ bytesOf r ++ lit "'"
  | .messageBuilding l r => lit "Error serializing '" ++ bytesOf l ++ lit "' due to reason: '" ++ bytesOf r ++ lit "'"
  | .messageSerialization l r => lit "Error serializing '" ++ bytesOf l ++ lit "' due to reason: '" ++ bytesOf r ++ lit "'"
  | .messageDeserialization l r => lit "Error deserializing '" ++ bytesOf l ++ lit "' due to reason: '" ++ bytesOf r ++ lit "'"
  | .dataUnpacking d r => lit "Error serializing '" ++ bytesOf d ++ lit "' due to reason: '" ++ bytesOf r ++ lit "'"
  | .regionSeedCap r => lit "Region seed capability not found when " ++ bytesOf r ++ lit "'"
  | .regionMessage r => lit "Agent has no udp connection enabled for: " ++ bytesOf r ++ lit "'"
  | .dataParsing e => lit "Data parsing error: " ++ bytesOf e ++ lit "'"
  | .notImplemented e => lit "This method has to be implemented here: " ++ bytesOf e
  | .deprecated t => lit "This thing is deprecated: " ++ bytesOf t

/-- A value that is text. -/
def IsText : Val → Prop
  | .bytes _ => True
  | .uni _ => True
  | _ => False

end Spec
end Pyogp
