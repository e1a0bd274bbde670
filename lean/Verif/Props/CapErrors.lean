import Verif.Proofs.CapErrors
import Verif.Props.Caps

/-! # C89: what the exceptions of a capability tell -/

namespace Pyogp
open Spec

/-! ## Demonstration data -/

/-- A parser that explains itself. -/
def capParse (b : Bytes) : Except String Llsd :=
  if b = [1] then .ok demoGrant else if b = [0] then .ok (.int 0) else .error "invalid token at index 0"

/-- A server with several kinds of failures. -/
def capServer (r : HttpRequest) : HttpReply :=
  if r.url = "http://sim/seed" then .response (some "application/llsd+xml; charset=utf-8") [1]
  else if r.url = "http://sim/zero" then .response (some "application/llsd+xml") [0]
  else if r.url = "http://sim/junk" then .response (some "application/llsd+xml") [7, 7]
  else if r.url = "http://sim/plain" then .response (some "text/plain; charset=utf-8") [1]
  else if r.url = "http://sim/broken" then .failure ⟨500, "Internal Server Error", [111, 111, 112, 115]⟩
  else .failure ⟨404, "Not Found", []⟩

instance {α : Type} [DecidableEq α] : DecidableEq (Except CapExc α)
  | .ok a, .ok b => if h : a = b then .isTrue (by rw [h]) else .isFalse (fun h' => h (by cases h'; rfl))
  | .error a, .error b => if h : a = b then .isTrue (by rw [h]) else .isFalse (fun h' => h (by cases h'; rfl))
  | .ok _, .error _ => .isFalse (fun h => by cases h)
  | .error _, .ok _ => .isFalse (fun h => by cases h)

/-! ## C89 -/

/-- **C89** (same program, GET). Without the attributes of the exceptions these are the results and the requests of C43. -/
theorem C89_same_get (parse : Bytes → Except String Llsd) (server : HttpRequest → HttpReply) (url : String) (custom : Dict String String) :
    kindOnly (capGetE parse server url custom).1 = (capGet (dropReason parse) (fun r => (server r).outcome) url custom).1 ∧
      (capGetE parse server url custom).2 = (capGet (dropReason parse) (fun r => (server r).outcome) url custom).2 := by
  unfold capGetE capGet
  simp only
  cases server ⟨url, .empty, wireHeaders []⟩ with
  | failure f => exact ⟨by simp only [kindOnly, HttpReply.outcome, restErrorE_kind], rfl⟩
  | otherError e => exact ⟨rfl, rfl⟩
  | response ct body =>
    cases ct with
    | none => exact ⟨rfl, rfl⟩
    | some ct =>
      simp only [HttpReply.outcome]
      split
      · exact ⟨llsdDeserializeE_kind parse body, rfl⟩
      · exact ⟨rfl, rfl⟩

/-- **C89** (same program, POST). -/
theorem C89_same_post (parse : Bytes → Except String Llsd) (server : HttpRequest → HttpReply) (order : Dict String String → Dict String String)
    (url : String) (payload : Llsd) (custom : Dict String String) :
    kindOnly (capPostE parse server order url payload custom).1 =
        (capPost (dropReason parse) (fun r => (server r).outcome) order url payload custom).1 ∧
      (capPostE parse server order url payload custom).2 = (capPost (dropReason parse) (fun r => (server r).outcome) order url payload custom).2 := by
  cases payload <;> first
    | exact ⟨rfl, rfl⟩
    | (unfold capPostE capPost
       simp only
       cases server _ with
       | failure f => exact ⟨by simp only [kindOnly, HttpReply.outcome, restErrorE_kind], rfl⟩
       | otherError e => exact ⟨rfl, rfl⟩
       | response ct body => exact ⟨responseHandlerE_kind parse ct body, rfl⟩)

/-- **C89** (same program, POST_CUSTOM). -/
theorem C89_same_post_custom (parse : Bytes → Except String Llsd) (server : HttpRequest → HttpReply)
    (order : Dict String String → Dict String String) (url : String) (headers : Dict String String) (payload : Bytes) :
    kindOnly (capPostCustomE parse server order url headers payload).1 =
        (capPostCustom (dropReason parse) (fun r => (server r).outcome) order url headers payload).1 ∧
      (capPostCustomE parse server order url headers payload).2 =
        (capPostCustom (dropReason parse) (fun r => (server r).outcome) order url headers payload).2 := by
  unfold capPostCustomE capPostCustom
  simp only
  cases server _ with
  | failure f => exact ⟨by simp only [kindOnly, HttpReply.outcome, restErrorE_kind], rfl⟩
  | otherError e => exact ⟨rfl, rfl⟩
  | response ct body => exact ⟨responseHandlerE_kind parse ct body, rfl⟩

/-- **C89** (same program, seed). -/
theorem C89_same_seed (parse : Bytes → Except String Llsd) (server : HttpRequest → HttpReply) (order : Dict String String → Dict String String)
    (url : String) (names : List String) :
    kindOnly (seedGetE parse server order url names).1 = (seedGet (dropReason parse) (fun r => (server r).outcome) order url names).1 ∧
      (seedGetE parse server order url names).2 = (seedGet (dropReason parse) (fun r => (server r).outcome) order url names).2 := by
  obtain ⟨h1, h2⟩ := C89_same_post parse server order url (.map [("capabilities", .arr (names.map .str))]) []
  unfold seedGetE seedGet
  simp only [← h1, ← h2]
  cases hr : capPostE parse server order url (.map [("capabilities", .arr (names.map .str))]) [] with
  | mk r reqs =>
    cases r with
    | error e => exact ⟨rfl, rfl⟩
    | ok v =>
      have hb : ((do
          let v ← (Except.ok v : Py Llsd)
          let granted ← llsdItem v "capabilities"
          grantedCaps granted names []) : Py (Dict String Capability)) = (do
          let granted ← llsdItem v "capabilities"
          grantedCaps granted names []) := rfl
      simp only [kindOnly, hb]
      generalize (do
        let granted ← llsdItem v "capabilities"
        grantedCaps granted names [] : Py (Dict String Capability)) = g
      cases g <;> exact ⟨rfl, rfl⟩

/-- **C89, GET.** The exception of a failed GET has the URL of the capability; a `ResourceError` also the server's code, message and body and the method. -/
theorem C89_get (parse : Bytes → Except String Llsd) (server : HttpRequest → HttpReply) (url : String) (custom : Dict String String) :
    CapResult GetAccepts parse url "GET" (server ⟨url, .empty, []⟩) (capGetE parse server url custom).1 := by
  unfold capGetE
  have hw : wireHeaders [] = [] := rfl
  simp only [hw]
  cases server ⟨url, .empty, []⟩ with
  | failure f => exact restErrorE_cases parse GetAccepts url "GET" f
  | otherError e => exact .raised e
  | response ct body =>
    cases ct with
    | none => exact .noType body
    | some ct =>
      have e1 := beforeSemicolon_iff "application/llsd+xml" ct (by decide)
      simp only
      by_cases h : GetAccepts ct body
      · rw [if_pos (e1.mpr h)]
        exact llsdDeserializeE_cases parse GetAccepts url "GET" ct body h
      · rw [if_neg (fun h' => h (e1.mp h'))]
        exact .unsupported ct _ body h (beforeSemicolon_media ct)

/-- **C89, POST.** The same with method POST, for the reply to the one request made. -/
theorem C89_post (parse : Bytes → Except String Llsd) (server : HttpRequest → HttpReply) (order : Dict String String → Dict String String)
    (url : String) (payload : Llsd) (custom : Dict String String) (hp : (∃ l, payload = .arr l) ∨ ∃ m, payload = .map m) :
    ∃ req, (capPostE parse server order url payload custom).2 = [req] ∧ req.url = url ∧ req.payload = .llsd payload ∧
      CapResult PostAccepts parse url "POST" (server req) (capPostE parse server order url payload custom).1 := by
  refine ⟨⟨url, .llsd payload, wireHeaders (order (postHeaders custom))⟩, ?_⟩
  rcases hp with ⟨l, rfl⟩ | ⟨m, rfl⟩ <;>
  · unfold capPostE
    cases hs : server _ with
    | failure f =>
      simp only [hs, true_and]
      exact restErrorE_cases parse PostAccepts url "POST" f
    | otherError e =>
      simp only [hs, true_and]
      exact .raised e
    | response ct body =>
      simp only [hs, true_and]
      exact responseHandlerE_cases parse url "POST" ct body

/-- **C89, POST_CUSTOM.** The same. -/
theorem C89_post_custom (parse : Bytes → Except String Llsd) (server : HttpRequest → HttpReply) (order : Dict String String → Dict String String)
    (url : String) (headers : Dict String String) (payload : Bytes) :
    ∃ req, (capPostCustomE parse server order url headers payload).2 = [req] ∧ req.url = url ∧ req.payload = .raw payload ∧
      CapResult PostAccepts parse url "POST" (server req) (capPostCustomE parse server order url headers payload).1 := by
  refine ⟨⟨url, .raw payload, wireHeaders (order headers)⟩, ?_⟩
  unfold capPostCustomE
  cases hs : server _ with
  | failure f =>
    simp only [hs, true_and]
    exact restErrorE_cases parse PostAccepts url "POST" f
  | otherError e =>
    simp only [hs, true_and]
    exact .raised e
  | response ct body =>
    simp only [hs, true_and]
    exact responseHandlerE_cases parse url "POST" ct body

/-- **C89, payload types.** Posting anything but a list or a map raises an exception that has the type of the payload in its `content_type`. -/
theorem C89_payload_type (parse : Bytes → Except String Llsd) (server : HttpRequest → HttpReply) (order : Dict String String → Dict String String)
    (url : String) (payload : Llsd) (custom : Dict String String) (h1 : ∀ l, payload ≠ .arr l) (h2 : ∀ m, payload ≠ .map m) :
    ∃ t, capPostE parse server order url payload custom = (.error (.noSerializer t), []) ∧
      (payload = .undef ∧ t = "<type 'NoneType'>" ∨ (∃ b, payload = .bool b) ∧ t = "<type 'bool'>" ∨ (∃ i, payload = .int i) ∧ t = "<type 'int'>" ∨
       (∃ x, payload = .real x) ∧ t = "<type 'float'>" ∨ (∃ s, payload = .str s) ∧ t = "<type 'str'>" ∨
       (∃ u, payload = .uuid u) ∧ t = "<class 'uuid.UUID'>" ∨ (∃ b, payload = .binary b) ∧ t = "<class 'llbase.llsd.binary'>") := by
  refine ⟨payload.typeText, ?_, by cases payload <;> simp_all [Llsd.typeText]⟩
  cases payload with
  | arr l => exact absurd rfl (h1 l)
  | map m => exact absurd rfl (h2 m)
  | _ => rfl

/-- **C89, seed.** Whatever exception the POST of a seed capability raises, `get` raises, with the same attributes. -/
theorem C89_seed (parse : Bytes → Except String Llsd) (server : HttpRequest → HttpReply) (order : Dict String String → Dict String String)
    (url : String) (names : List String) (e : CapExc)
    (h : (capPostE parse server order url (.map [("capabilities", .arr (names.map .str))]) []).1 = .error e) :
    (seedGetE parse server order url names).1 = .error e := by
  unfold seedGetE
  cases hr : capPostE parse server order url (.map [("capabilities", .arr (names.map .str))]) [] with
  | mk r reqs =>
    rw [hr] at h
    simp only at h
    subst h
    rfl

/-- **C89, determined.** The reply determines the result. -/
theorem C89_determined {accepts : String → Bytes → Prop} {parse : Bytes → Except String Llsd} {url method : String} {o : HttpReply}
    {r r' : Except CapExc Llsd} (h : CapResult accepts parse url method o r) (h' : CapResult accepts parse url method o r') : r = r' := by
  have mt : ∀ ct t t', MediaTypeOf ct t → MediaTypeOf ct t' → t = t' := fun ct t t' a b => by
    rw [← (beforeSemicolon_iff t ct a.1).mpr a.2, ← (beforeSemicolon_iff t' ct b.1).mpr b.2]
  cases h <;> cases h' <;> first
    | rfl
    | contradiction
    | (simp_all; done)
    | (rename_i a _ b _; rw [mt _ _ _ a b])

/-- **C89, texts.** As strings, the exceptions are: the URL; the method, URL, message and code; the content type (or payload type) in a sentence. -/
theorem C89_texts (url message method ct : String) (code : Int) (body : Bytes) :
    (CapExc.resourceNotFound url).text = some url ∧
      (CapExc.resourceError url code message body method).text =
        some (s!"Error using '{method}' on resource '{url}': {message} ({code})") ∧
      (CapExc.deserializerNotFound ct).text = some s!"deserialization for '{ct}' not supported" ∧
      (CapExc.noSerializer ct).text = some s!"deserialization for '{ct}' not supported" := by
  refine ⟨rfl, ?_, ?_, ?_⟩ <;> simp [CapExc.text, toString, String.append_assoc]

/-! Concrete cases. -/

example : (capGetE capParse capServer "http://sim/broken" []).1 =
    .error (.resourceError "http://sim/broken" 500 "Internal Server Error" [111, 111, 112, 115] "GET") := by decide +kernel
example : (capPostE capParse capServer id "http://sim/broken" (.arr []) []).1 =
    .error (.resourceError "http://sim/broken" 500 "Internal Server Error" [111, 111, 112, 115] "POST") := by decide +kernel
example : (capPostCustomE capParse capServer id "http://sim/gone" [] [65]).1 = .error (.resourceNotFound "http://sim/gone") := by decide +kernel
example : (capGetE capParse capServer "http://sim/plain" []).1 = .error (.deserializerNotFound "text/plain") := by decide +kernel
example : (capGetE capParse capServer "http://sim/junk" []).1 = .error (.deserializationFailed [7, 7] "invalid token at index 0") := by decide +kernel
example : (capGetE capParse capServer "http://sim/zero" []).1 = .error (.deserializationFailed [0] "result was False") := by decide +kernel
example : (capGetE capParse capServer "http://sim/seed" []).1 = .ok demoGrant := by decide +kernel
example : (capPostE capParse capServer id "http://sim/seed" (.int 3) []).1 = .error (.noSerializer "<type 'int'>") := by decide +kernel
example : (seedGetE capParse capServer id "http://sim/broken" ["GetTexture"]).1 =
    .error (.resourceError "http://sim/broken" 500 "Internal Server Error" [111, 111, 112, 115] "POST") := by decide +kernel
example : (CapExc.resourceError "http://sim/broken" 500 "Internal Server Error" [] "GET").text =
    some "Error using 'GET' on resource 'http://sim/broken': Internal Server Error (500)" := by decide +kernel

end Pyogp
