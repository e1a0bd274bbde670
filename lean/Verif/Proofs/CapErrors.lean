import Verif.Spec.CapErrors
import Verif.Proofs.Caps

/-! # Proofs about the exceptions of capabilities -/

namespace Pyogp
open Spec

theorem llsdDeserializeE_cases (parse : Bytes → Except String Llsd) (accepts : String → Bytes → Prop) (url method ct : String) (body : Bytes)
    (h : accepts ct body) : CapResult accepts parse url method (.response (some ct) body) (llsdDeserializeE parse body) := by
  unfold llsdDeserializeE
  cases hp : parse body with
  | error r => exact .malformed ct body r h hp
  | ok v =>
    by_cases hv : isFalse v = true
    · simp only [hv, if_true]
      exact .falseValue ct body v h hp ((isFalse_iff v).mp hv)
    · simp only [hv]
      exact .parsed ct body v h hp (fun h' => hv ((isFalse_iff v).mpr h'))

theorem restErrorE_cases (parse : Bytes → Except String Llsd) (accepts : String → Bytes → Prop) (url method : String) (f : HttpFailure) :
    CapResult accepts parse url method (.failure f) (.error (restErrorE url method f)) := by
  unfold restErrorE
  by_cases h : f.code = 404
  · rw [if_pos h]; exact .notFound f h
  · rw [if_neg h]; exact .failed f h

theorem beforeSemicolon_media (ct : String) : MediaTypeOf ct (beforeSemicolon ct) := by
  have h : ';' ∉ (beforeSemicolon ct).toList := by
    unfold beforeSemicolon
    rw [String.toList_ofList]
    intro hm
    have := List.all_eq_true.mp (List.all_takeWhile (p := (· ≠ ';')) (l := ct.toList)) _ hm
    simp at this
  exact ⟨h, (beforeSemicolon_iff _ ct h).mp rfl⟩

theorem responseHandlerE_cases (parse : Bytes → Except String Llsd) (url method : String) (ct : Option String) (body : Bytes) :
    CapResult PostAccepts parse url method (.response ct body) (responseHandlerE parse ct body) := by
  cases ct with
  | none => exact .noType body
  | some ct =>
    unfold responseHandlerE
    simp only
    have e1 := beforeSemicolon_iff "application/llsd+xml" ct (by decide)
    have e2 := beforeSemicolon_iff "application/xml" ct (by decide)
    have e3 := beforeSemicolon_iff "text/html" ct (by decide)
    have e4 := looksLikeLlsd_iff body
    by_cases h : PostAccepts ct body
    · rw [if_pos (by rw [e1, e2, e3, e4]; exact h)]
      exact llsdDeserializeE_cases parse PostAccepts url method ct body h
    · rw [if_neg (by rw [e1, e2, e3, e4]; exact h)]
      exact .unsupported ct _ body h (beforeSemicolon_media ct)

theorem llsdDeserializeE_kind (parse : Bytes → Except String Llsd) (body : Bytes) :
    kindOnly (llsdDeserializeE parse body) = llsdDeserialize (dropReason parse) body := by
  unfold llsdDeserializeE llsdDeserialize dropReason
  cases parse body with
  | error r => rfl
  | ok v =>
    simp only [Except.toOption]
    by_cases hv : isFalse v = true
    · rw [if_pos hv, if_pos hv]; rfl
    · rw [if_neg hv, if_neg hv]; rfl

theorem restErrorE_kind (url method : String) (f : HttpFailure) : (restErrorE url method f).kind = restError f.code := by
  unfold restErrorE restError
  by_cases h : f.code = 404
  · rw [if_pos h, if_pos h]; rfl
  · rw [if_neg h, if_neg h]; rfl

theorem responseHandlerE_kind (parse : Bytes → Except String Llsd) (ct : Option String) (body : Bytes) :
    kindOnly (responseHandlerE parse ct body) = responseHandler (dropReason parse) ct body := by
  cases ct with
  | none => rfl
  | some ct =>
    unfold responseHandlerE responseHandler
    simp only
    split
    · exact llsdDeserializeE_kind parse body
    · rfl

end Pyogp
