import Verif.Model.DeserializeErrors
import Verif.Spec.Reading

/-! # Specification: what `deserialize` complains about -/

namespace Pyogp.Spec

/-- The exception a datagram deserves. -/
inductive Complaint (env : DeserEnv) (dg : Bytes) : DeserExc → Prop
  /-- It ends before or within the message number. -/
  | truncated (e : Exc) : Truncated dg e → Complaint env dg (.other e)
  /-- The packet is not longer than a header. -/
  | onlyHeader : OnlyHeader dg → Complaint env dg (.deserialization "packet length" "template mismatch")
  /-- The body ends before the number of instances of a Variable block: about the message, because there is not one byte to unpack. -/
  | noCount (x : Frame) (t : Template) : Framed dg x → env.dict.getTemplateByPair x.freq x.num = some t → Parsed env t.name →
      NoCount env.rt t.blocks (bodyOf x t) → Complaint env dg (.deserializationOf t.name (.unpacking []))
  /-- The template has blocks, and there is no instance of any. -/
  | empty (x : Frame) (t : Template) (raw post : Bytes) (bss : List (List BlockData)) : Framed dg x →
      env.dict.getTemplateByPair x.freq x.num = some t → Parsed env t.name → bodyOf x t = raw ++ post → BlocksBytes env.rt t.blocks raw bss →
      t.blocks ≠ [] → (∀ bs ∈ bss, bs = []) → Complaint env dg (.deserialization "message" "message is empty")

end Pyogp.Spec
