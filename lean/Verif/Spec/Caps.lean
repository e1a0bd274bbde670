import Verif.Model.Caps

/-!
# Specification: HTTP responses and granted capabilities
-/

namespace Pyogp.Spec

/-- The content type header `ct` names the media type `t`, possibly followed by parameters. -/
def MediaType (t ct : String) : Prop := ct.toList = t.toList ∨ ∃ params, ct.toList = t.toList ++ ';' :: params

/-- White space in a byte string. -/
def Space (b : UInt8) : Prop := b = 32 ∨ b = 9 ∨ b = 10 ∨ b = 11 ∨ b = 12 ∨ b = 13

/-- The body starts with an XML declaration of version `1_0` immediately followed by an `llsd` element that closes on the same line. -/
def StartsWithLlsd (body : Bytes) : Prop :=
  ∃ s₁ dot s₂ content rest, Space s₁ ∧ dot ≠ 10 ∧ Space s₂ ∧ (10 : UInt8) ∉ content ∧
    body = asciiBytes "<?xml" ++ s₁ :: asciiBytes "version=\"1" ++ dot :: asciiBytes "0\"" ++ s₂ :: asciiBytes "?><llsd>" ++ content ++
      asciiBytes "</llsd>" ++ rest

/-- The two names consist of the same letters, upper or lower case. -/
def SameLetters (a b : String) : Prop := a.toList.map Char.toLower = b.toList.map Char.toLower

/-- What a POST accepts as LLSD. -/
def PostAccepts (ct : String) (body : Bytes) : Prop :=
  MediaType "application/llsd+xml" ct ∨ MediaType "application/xml" ct ∨ (MediaType "text/html" ct ∧ StartsWithLlsd body)

/-- What a GET accepts as LLSD. -/
def GetAccepts (ct : String) (_body : Bytes) : Prop := MediaType "application/llsd+xml" ct

/-- The values that Python compares equal to `False`. -/
def EqualsFalse (v : Llsd) : Prop := v = .bool false ∨ v = .int 0 ∨ v = .real 0#64 ∨ v = .real 0x8000000000000000#64

/-- What a caller sees for an outcome of the HTTP exchange. -/
inductive HttpResult (accepts : String → Bytes → Prop) (parse : Bytes → Option Llsd) : HttpOutcome → Py Llsd → Prop
  | notFound : HttpResult accepts parse (.httpError 404) (.error .resourceNotFound)
  | failed (c : Int) : c ≠ 404 → HttpResult accepts parse (.httpError c) (.error (.resourceError c))
  | raised (e : Exc) : HttpResult accepts parse (.otherError e) (.error e)
  | noType (body : Bytes) : HttpResult accepts parse (.response none body) (.error .keyError)
  | unsupported (ct : String) (body : Bytes) : ¬ accepts ct body →
      HttpResult accepts parse (.response (some ct) body) (.error .deserializerNotFound)
  | malformed (ct : String) (body : Bytes) : accepts ct body → parse body = none →
      HttpResult accepts parse (.response (some ct) body) (.error .deserializationFailed)
  | falseValue (ct : String) (body : Bytes) (v : Llsd) : accepts ct body → parse body = some v → EqualsFalse v →
      HttpResult accepts parse (.response (some ct) body) (.error .deserializationFailed)
  | parsed (ct : String) (body : Bytes) (v : Llsd) : accepts ct body → parse body = some v → ¬ EqualsFalse v →
      HttpResult accepts parse (.response (some ct) body) (.ok v)

end Pyogp.Spec
