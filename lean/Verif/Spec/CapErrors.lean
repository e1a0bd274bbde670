import Verif.Spec.Caps
import Verif.Model.CapErrors

/-!
# Specification: what a caller of a capability learns
-/

namespace Pyogp.Spec

/-- The media type of a content type header: what precedes the first semicolon. -/
def MediaTypeOf (ct t : String) : Prop := ';' ∉ t.toList ∧ MediaType t ct

/-- What the caller of a capability at `url` sees, when the request was made with `method` and this is the reply to it. -/
inductive CapResult (accepts : String → Bytes → Prop) (parse : Bytes → Except String Llsd) (url method : String) : HttpReply → Except CapExc Llsd → Prop
  | notFound (f : HttpFailure) : f.code = 404 → CapResult accepts parse url method (.failure f) (.error (.resourceNotFound url))
  | failed (f : HttpFailure) : f.code ≠ 404 →
      CapResult accepts parse url method (.failure f) (.error (.resourceError url f.code f.msg f.body method))
  | raised (e : Exc) : CapResult accepts parse url method (.otherError e) (.error (.other e))
  | noType (body : Bytes) : CapResult accepts parse url method (.response none body) (.error (.other .keyError))
  | unsupported (ct t : String) (body : Bytes) : ¬ accepts ct body → MediaTypeOf ct t →
      CapResult accepts parse url method (.response (some ct) body) (.error (.deserializerNotFound t))
  | malformed (ct : String) (body : Bytes) (reason : String) : accepts ct body → parse body = .error reason →
      CapResult accepts parse url method (.response (some ct) body) (.error (.deserializationFailed body reason))
  | falseValue (ct : String) (body : Bytes) (v : Llsd) : accepts ct body → parse body = .ok v → EqualsFalse v →
      CapResult accepts parse url method (.response (some ct) body) (.error (.deserializationFailed body "result was False"))
  | parsed (ct : String) (body : Bytes) (v : Llsd) : accepts ct body → parse body = .ok v → ¬ EqualsFalse v →
      CapResult accepts parse url method (.response (some ct) body) (.ok v)

/-- `parse` without the text of its exception. -/
def dropReason (parse : Bytes → Except String Llsd) (b : Bytes) : Option Llsd := (parse b).toOption

/-- A result without the attributes of the exception. -/
def kindOnly {α : Type} : Except CapExc α → Py α
  | .ok v => .ok v
  | .error e => .error e.kind

end Pyogp.Spec
