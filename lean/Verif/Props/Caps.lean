import Verif.Proofs.Caps

/-!
# Capabilities (C42, C43)
-/

namespace Pyogp
open Spec

/-! ## Demonstration data -/

/-- The grant of the demonstration server. -/
def demoGrant : Llsd :=
  .map [("capabilities", .map [("EventQueueGet", .str "http://sim/eq"), ("GetTexture", .str "http://sim/tex"), ("Unasked", .str "http://sim/u")])]

/-- A parser that knows two bodies. -/
def demoParse (b : Bytes) : Option Llsd := if b = [1] then some demoGrant else if b = [0] then some (.int 0) else none

/-- A server that grants to the seed URL and fails elsewhere. -/
def demoServer (r : HttpRequest) : HttpOutcome :=
  if r.url = "http://sim/seed" then .response (some "application/llsd+xml; charset=utf-8") [1]
  else if r.url = "http://sim/zero" then .response (some "application/llsd+xml") [0]
  else if r.url = "http://sim/plain" then .response (some "text/plain") [1]
  else if r.url = "http://sim/untyped" then .response none [1]
  else if r.url = "http://sim/broken" then .httpError 500 else .httpError 404

/-- A dictionary is iterated in some order. -/
def IsOrder (order : Dict String String → Dict String String) : Prop := ∀ d, (order d).Perm d

theorem isOrder_id : IsOrder id := fun d => List.Perm.refl d

theorem isOrder_reverse : IsOrder List.reverse := fun d => List.reverse_perm d

/-- The request `SeedCapability.get(names)` makes. -/
def seedRequest (url : String) (names : List String) : HttpRequest :=
  ⟨url, .llsd (.map [("capabilities", .arr (names.map .str))]), [("Content-type", "application/llsd+xml")]⟩

/-! ## C42 -/

/-- **C42, the request.** Whatever the server does, exactly one request is made: a POST of `{'capabilities': names}` to the seed URL. -/
theorem C42_seed_posts_once (parse : Bytes → Option Llsd) (server : HttpRequest → HttpOutcome) (order : Dict String String → Dict String String)
    (ho : IsOrder order) (url : String) (names : List String) :
    (seedGet parse server order url names).2 = [seedRequest url names] := by
  have hw : wireHeaders (order (postHeaders [])) = [("Content-type", "application/llsd+xml")] := by
    have := ho (postHeaders [])
    have h1 : postHeaders [] = [("Content-type", "application/llsd+xml")] := rfl
    rw [h1] at this
    rw [h1, List.perm_singleton.mp this]
    decide +kernel
  unfold seedGet capPost
  simp only [hw]
  unfold seedRequest
  cases server _ <;> rfl

/-- **C42, the result.** If the answer is LLSD with a map `capabilities`, the result is exactly one capability per requested name, with the
granted URL, when every name was granted, and `KeyError` as soon as one was not. -/
theorem C42_seed_result (parse : Bytes → Option Llsd) (server : HttpRequest → HttpOutcome) (order : Dict String String → Dict String String)
    (ho : IsOrder order) (url : String) (names : List String) (ct : String) (body : Bytes) (reply granted : List (String × Llsd))
    (hserver : server (seedRequest url names) = .response (some ct) body) (hct : MediaType "application/llsd+xml" ct)
    (hparse : parse body = some (.map reply)) (hreply : Dict.get? reply "capabilities" = some (.map granted)) :
    ((∀ n ∈ names, Dict.get? granted n ≠ none) →
      ∃ caps, (seedGet parse server order url names).1 = .ok caps ∧ caps.keys.Nodup ∧
        (∀ n, n ∈ caps.keys ↔ n ∈ names) ∧
        ∀ n ∈ names, ∃ u, Dict.get? granted n = some u ∧ caps.get? n = some ⟨n, u⟩) ∧
    ((∃ n ∈ names, Dict.get? granted n = none) → (seedGet parse server order url names).1 = .error .keyError) := by
  have hw : wireHeaders (order (postHeaders [])) = [("Content-type", "application/llsd+xml")] := by
    have := ho (postHeaders [])
    have h1 : postHeaders [] = [("Content-type", "application/llsd+xml")] := rfl
    rw [h1] at this
    rw [h1, List.perm_singleton.mp this]
    decide +kernel
  have hr : (capPost parse server order url (.map [("capabilities", .arr (names.map .str))]) []).1 = .ok (.map reply) := by
    unfold capPost
    simp only [hw]
    unfold seedRequest at hserver
    simp only [hserver]
    have h1 := responseHandler_cases parse (some ct) body
    have h2 : HttpResult PostAccepts parse (.response (some ct) body) (.ok (.map reply)) := by
      refine .parsed ct body _ (.inl hct) hparse ?_
      unfold EqualsFalse; simp
    exact HttpResult_functional h1 h2
  have hget : (seedGet parse server order url names).1 = grantedCaps (.map granted) names [] := by
    unfold seedGet
    simp only [hr]
    show (llsdItem (.map reply) "capabilities").bind _ = _
    simp only [llsdItem, Dict.get, hreply]
    rfl
  rw [hget]
  refine ⟨fun h => ?_, fun h => grantedCaps_error granted names [] h⟩
  obtain ⟨caps, hc, hg⟩ := grantedCaps_ok granted names [] h
  refine ⟨caps, hc, grantedCaps_keys _ names [] caps List.nodup_nil hc, ?_, ?_⟩
  · intro n
    constructor
    · intro hn
      by_cases hm : n ∈ names
      · exact hm
      · have := hg n
        simp only [hm, if_false] at this
        exact absurd hn ((Dict.get?_eq_none_iff caps n).mp this)
    · intro hn
      have hgn := hg n
      simp only [hn, if_true] at hgn
      obtain ⟨u, hu⟩ := Option.ne_none_iff_exists'.mp (h n hn)
      rw [hu] at hgn
      exact Dict.mem_keys_of_get? hgn
  · intro n hn
    have hgn := hg n
    simp only [hn, if_true] at hgn
    obtain ⟨u, hu⟩ := Option.ne_none_iff_exists'.mp (h n hn)
    exact ⟨u, hu, by rw [hgn, hu]; rfl⟩

/-- Example: two of the three granted capabilities are asked for, one of them twice. -/
example : seedGet demoParse demoServer id "http://sim/seed" ["GetTexture", "EventQueueGet", "GetTexture"] =
    (.ok [("GetTexture", ⟨"GetTexture", .str "http://sim/tex"⟩), ("EventQueueGet", ⟨"EventQueueGet", .str "http://sim/eq"⟩)],
      [seedRequest "http://sim/seed" ["GetTexture", "EventQueueGet", "GetTexture"]]) := by decide +kernel

example : (seedGet demoParse demoServer id "http://sim/seed" ["GetTexture", "NotGranted"]).1 = .error .keyError := by decide +kernel

example : MediaType "application/llsd+xml" "application/llsd+xml; charset=utf-8" := .inr ⟨" charset=utf-8".toList, by decide⟩

/-- A failing exchange fails the whole call with that exception. -/
theorem C42_seed_error (parse : Bytes → Option Llsd) (server : HttpRequest → HttpOutcome) (order : Dict String String → Dict String String)
    (url : String) (names : List String) (e : Exc)
    (h : (capPost parse server order url (.map [("capabilities", .arr (names.map .str))]) []).1 = .error e) :
    (seedGet parse server order url names).1 = .error e := by
  unfold seedGet
  simp only [h]
  rfl

example : (seedGet demoParse demoServer id "http://sim/gone" ["GetTexture"]).1 = .error .resourceNotFound := by decide +kernel

/-- **C42, other answers.** An answer that is not a map raises `TypeError`, a map without `capabilities` `KeyError`; and if `capabilities` is not a map, asking for any name raises
`TypeError` (and for none gives no capabilities). -/
theorem C42_seed_other_answers (parse : Bytes → Option Llsd) (server : HttpRequest → HttpOutcome) (order : Dict String String → Dict String String)
    (url : String) (names : List String) (v : Llsd)
    (h : (capPost parse server order url (.map [("capabilities", .arr (names.map .str))]) []).1 = .ok v) :
    ((∀ m, v ≠ .map m) → (seedGet parse server order url names).1 = .error .typeError) ∧
    (∀ m, v = .map m → Dict.get? m "capabilities" = none → (seedGet parse server order url names).1 = .error .keyError) ∧
    (∀ m g, v = .map m → Dict.get? m "capabilities" = some g → (∀ m', g ≠ .map m') →
      (seedGet parse server order url names).1 = if names = [] then .ok [] else .error .typeError) := by
  have hs : (seedGet parse server order url names).1 = (llsdItem v "capabilities").bind (fun granted => grantedCaps granted names []) := by
    unfold seedGet
    simp only [h]
    rfl
  have item : ∀ (x : Llsd) (k : String), (∀ m, x ≠ .map m) → llsdItem x k = .error .typeError := by
    intro x k hx
    cases x with
    | map m => exact absurd rfl (hx m)
    | _ => rfl
  rw [hs]
  refine ⟨fun hv => ?_, fun m hv hm => ?_, fun m g hv hm hg => ?_⟩
  · rw [item _ _ hv]; rfl
  · subst hv
    simp only [llsdItem, Dict.get, hm]
    rfl
  · subst hv
    simp only [llsdItem, Dict.get, hm]
    cases names with
    | nil => rfl
    | cons n ns =>
      show grantedCaps g (n :: ns) [] = _
      unfold grantedCaps
      rw [item _ _ hg]
      rfl

/-- The hypothesis is met: a list, a map without `capabilities`, and one where it is a text. -/
example :
    let get := fun (v : Llsd) (names : List String) =>
      (seedGet (fun _ => some v) (fun _ => .response (some "application/xml") []) id "http://sim/seed" names).1
    get (.arr [.int 1]) ["GetTexture"] = .error .typeError ∧ get (.map [("error", .str "no")]) ["GetTexture"] = .error .keyError ∧
    get (.map [("capabilities", .str "none")]) ["GetTexture"] = .error .typeError ∧ get (.map [("capabilities", .str "none")]) [] = .ok [] := by
  decide +kernel

/-! ## C43 -/

/-- **C43, GET.** One request is made, without payload, and its outcome determines the result: 404, another HTTP error, an unsupported
content type, or the parsed body. -/
theorem C43_get (parse : Bytes → Option Llsd) (server : HttpRequest → HttpOutcome) (url : String) (custom : Dict String String) :
    (capGet parse server url custom).2 = [⟨url, .empty, []⟩] ∧
      HttpResult GetAccepts parse (server ⟨url, .empty, []⟩) (capGet parse server url custom).1 := by
  have hw : wireHeaders [] = [] := rfl
  unfold capGet
  simp only [hw]
  cases hs : server ⟨url, .empty, []⟩ with
  | httpError c => exact ⟨rfl, restError_cases parse GetAccepts c⟩
  | otherError e => exact ⟨rfl, .raised e⟩
  | response ct body =>
    cases ct with
    | none => exact ⟨rfl, .noType body⟩
    | some ct =>
      have e1 := beforeSemicolon_iff "application/llsd+xml" ct (by decide)
      by_cases h : GetAccepts ct body
      · have h' := e1.mpr h
        simp only [h', if_true]
        exact ⟨trivial, llsdDeserialize_cases parse GetAccepts ct body h⟩
      · have h' : ¬ beforeSemicolon ct = "application/llsd+xml" := fun h' => h (e1.mp h')
        simp only [h', if_false]
        exact ⟨trivial, .unsupported ct body h⟩

/-- **C43, POST.** A list or a map is posted once, and the outcome determines the result. -/
theorem C43_post (parse : Bytes → Option Llsd) (server : HttpRequest → HttpOutcome) (order : Dict String String → Dict String String)
    (url : String) (payload : Llsd) (custom : Dict String String) (hp : (∃ l, payload = .arr l) ∨ ∃ m, payload = .map m) :
    ∃ req, (capPost parse server order url payload custom).2 = [req] ∧ req.url = url ∧ req.payload = .llsd payload ∧
      HttpResult PostAccepts parse (server req) (capPost parse server order url payload custom).1 := by
  refine ⟨⟨url, .llsd payload, wireHeaders (order (postHeaders custom))⟩, ?_⟩
  rcases hp with ⟨l, rfl⟩ | ⟨m, rfl⟩ <;>
  · unfold capPost
    cases hs : server _ with
    | httpError c =>
      simp only [hs, true_and]
      exact restError_cases parse PostAccepts c
    | otherError e =>
      simp only [hs, true_and]
      exact .raised e
    | response ct body =>
      simp only [hs, true_and]
      exact responseHandler_cases parse ct body

/-- **C43, header names.** On the way a header name keeps its letters but not their case: the first letter arrives in upper case, the others in lower
case.  So exactly the names that consist of the same letters arrive as one header. -/
theorem C43_header_names (a b : String) :
    SameLetters (capitalize a) a ∧ (∀ c ∈ (capitalize a).toList.head?, ¬ ('a' ≤ c ∧ c ≤ 'z')) ∧ (∀ c ∈ (capitalize a).toList.tail, ¬ ('A' ≤ c ∧ c ≤ 'Z')) ∧
    (capitalize a = capitalize b ↔ SameLetters a b) := by
  have h : ∀ s, SameLetters (capitalize s) s := by
    intro s
    unfold SameLetters capitalize
    cases hs : s.toList with
    | nil => rfl
    | cons c cs => simp [toLower_toUpper, toLower_toLower, Function.comp_def]
  refine ⟨h a, ?_, ?_, fun he => ?_, fun he => ?_⟩
  · unfold capitalize
    cases a.toList with
    | nil => intro c hc; cases hc
    | cons c cs =>
      intro d hd
      simp only [String.toList_ofList, List.head?_cons, Option.mem_some_iff] at hd
      subst hd
      rintro ⟨h1, h2⟩
      have h1 : 97 ≤ c.toUpper.val.toNat := UInt32.le_iff_toNat_le.mp h1
      have h2 : c.toUpper.val.toNat ≤ 122 := UInt32.le_iff_toNat_le.mp h2
      have := toUpper_val c
      split at this <;> omega
  · unfold capitalize
    cases a.toList with
    | nil => intro c hc; cases hc
    | cons c cs =>
      intro d hd
      simp only [String.toList_ofList, List.tail_cons, List.mem_map] at hd
      obtain ⟨c, _, rfl⟩ := hd
      rintro ⟨h1, h2⟩
      have h1 : 65 ≤ c.toLower.val.toNat := UInt32.le_iff_toNat_le.mp h1
      have h2 : c.toLower.val.toNat ≤ 90 := UInt32.le_iff_toNat_le.mp h2
      have := toLower_val c
      split at this <;> omega
  · exact (h a).symm.trans ((congrArg (fun s : String => s.toList.map Char.toLower) he).trans (h b))
  · unfold SameLetters at he
    unfold capitalize
    cases ha : a.toList with
    | nil =>
      cases hb : b.toList with
      | nil => rfl
      | cons c cs => rw [ha, hb] at he; cases he
    | cons c cs =>
      cases hb : b.toList with
      | nil => rw [ha, hb] at he; cases he
      | cons d ds =>
        rw [ha, hb, List.map_cons, List.map_cons, List.cons.injEq] at he
        simp only
        rw [he.2, ← toUpper_toLower c, ← toUpper_toLower d, he.1]

/-- Example: one header with three spellings. -/
example : SameLetters "Content-Type" "content-type" ∧ capitalize "CONTENT-TYPE" = "Content-type" ∧ capitalize "Content-Type" = "Content-type" := by
  unfold SameLetters; decide +kernel
/-- **C43, POST_CUSTOM.** The caller's bytes are posted once, with the caller's headers only, and the outcome determines the result. -/
theorem C43_post_custom (parse : Bytes → Option Llsd) (server : HttpRequest → HttpOutcome) (order : Dict String String → Dict String String)
    (ho : IsOrder order) (url : String) (headers : Dict String String) (payload : Bytes) (hn : (headers.map (·.1)).Nodup)
    (hcase : ∀ a ∈ headers.map (·.1), ∀ b ∈ headers.map (·.1), SameLetters a b → a = b) :
    ∃ req, (capPostCustom parse server order url headers payload).2 = [req] ∧ req.url = url ∧ req.payload = .raw payload ∧
      (∀ p ∈ headers, req.headers.get? (capitalize p.1) = some p.2) ∧
      (∀ n, (∀ p ∈ headers, capitalize p.1 ≠ n) → req.headers.get? n = none) ∧
      HttpResult PostAccepts parse (server req) (capPostCustom parse server order url headers payload).1 := by
  have hperm := ho headers
  refine ⟨⟨url, .raw payload, wireHeaders (order headers)⟩, ?_, rfl, rfl, ?_, ?_, ?_⟩
  · unfold capPostCustom
    simp only
    cases server _ <;> rfl
  · intro p hp
    refine wireHeaders_mem _ [] (hperm.mem_iff.mpr hp) ((hperm.map _).nodup_iff.mpr hn) ?_
    intro q hq he
    exact hcase _ (List.mem_map.mpr ⟨q, hperm.mem_iff.mp hq, rfl⟩) _ (List.mem_map.mpr ⟨p, hp, rfl⟩) ((C43_header_names _ _).2.2.2.mp he)
  · intro n h
    exact wireHeaders_get _ [] n (fun p hp => h p (hperm.mem_iff.mp hp))
  · unfold capPostCustom
    cases hs : server _ with
    | httpError c =>
      simp only [hs]
      exact restError_cases parse PostAccepts c
    | otherError e =>
      simp only [hs]
      exact .raised e
    | response ct body =>
      simp only [hs]
      exact responseHandler_cases parse ct body

example : (capPostCustom demoParse demoServer id "http://sim/seed" [("Content-Type", "application/vnd.ll.lsltext")] [65]) =
    (.ok demoGrant, [⟨"http://sim/seed", .raw [65], [("Content-type", "application/vnd.ll.lsltext")]⟩]) := by decide +kernel

/-- **C43, payload types.** Anything but a list or a map is refused without a request. -/
theorem C43_payload_type (parse : Bytes → Option Llsd) (server : HttpRequest → HttpOutcome) (order : Dict String String → Dict String String)
    (url : String) (payload : Llsd) (custom : Dict String String) (h1 : ∀ l, payload ≠ .arr l) (h2 : ∀ m, payload ≠ .map m) :
    capPost parse server order url payload custom = (.error .deserializerNotFound, []) := by
  cases payload with
  | arr l => exact absurd rfl (h1 l)
  | map m => exact absurd rfl (h2 m)
  | _ => rfl

example : capPost demoParse demoServer id "http://sim/seed" (.str "text") [] = (.error .deserializerNotFound, []) :=
  C43_payload_type _ _ _ _ _ _ (by simp) (by simp)

/-- **C43, 404.** `ResourceNotFound` is raised exactly on a 404 (unless the rest client itself raises it). -/
theorem C43_not_found_iff {accepts : String → Bytes → Prop} {parse : Bytes → Option Llsd} {o : HttpOutcome} {r : Py Llsd}
    (h : HttpResult accepts parse o r) (hne : o ≠ .otherError .resourceNotFound) : r = .error .resourceNotFound ↔ o = .httpError 404 := by
  constructor
  · rintro rfl
    cases h with
    | notFound => rfl
    | raised => exact absurd rfl hne
  · rintro rfl
    cases h with
    | notFound => rfl
    | failed c hc => exact absurd rfl hc

/-- **C43, other codes.** `ResourceError` with code `c` is raised exactly on HTTP error `c`, and then `c` is not 404. -/
theorem C43_resource_error_iff {accepts : String → Bytes → Prop} {parse : Bytes → Option Llsd} {o : HttpOutcome} {r : Py Llsd} (c : Int)
    (h : HttpResult accepts parse o r) (hne : o ≠ .otherError (.resourceError c)) :
    r = .error (.resourceError c) ↔ o = .httpError c ∧ c ≠ 404 := by
  constructor
  · rintro rfl
    cases h with
    | failed c hc => exact ⟨rfl, hc⟩
    | raised => exact absurd rfl hne
  · rintro ⟨rfl, hc⟩
    cases h with
    | notFound => exact absurd rfl hc
    | failed => rfl

example : (capGet demoParse demoServer "http://sim/broken" []).1 = .error (.resourceError 500) := by decide +kernel
example : (capGet demoParse demoServer "http://sim/gone" []).1 = .error .resourceNotFound := by decide +kernel
example : (capGet demoParse demoServer "http://sim/plain" []).1 = .error .deserializerNotFound := by decide +kernel
example : (capGet demoParse demoServer "http://sim/seed" []).1 = .ok demoGrant := by decide +kernel

/-- Example of an HTML response that is accepted because it is LLSD. -/
example : looksLikeLlsd (asciiBytes "<?xml version=\"1.0\" ?><llsd><map/></llsd>\n") = true := by decide +kernel
example : StartsWithLlsd (asciiBytes "<?xml version=\"1.0\" ?><llsd><map/></llsd>\n") := (looksLikeLlsd_iff _).mp (by decide +kernel)

/-- **C43, values equal to false.** A well-formed body whose value is a number zero (or false) raises instead of being returned. -/
theorem C43_zero_body : (capGet demoParse demoServer "http://sim/zero" []).1 = .error .deserializationFailed ∧ demoParse [0] = some (.int 0) := by
  decide +kernel

/-- **C43, no content type.** `KeyError` escapes. -/
theorem C43_no_content_type : (capGet demoParse demoServer "http://sim/untyped" []).1 = .error .keyError ∧
    (capPost demoParse demoServer id "http://sim/untyped" (.map []) []).1 = .error .keyError := by decide +kernel

/-- **C43, headers.** Custom headers reach the server, and an exact `Content-type` replaces the default; unless two of the names
differ only in case. -/
theorem C43_headers (parse : Bytes → Option Llsd) (server : HttpRequest → HttpOutcome) (order : Dict String String → Dict String String)
    (ho : IsOrder order) (url : String) (payload : Llsd) (hp : (∃ l, payload = .arr l) ∨ ∃ m, payload = .map m) (custom : Dict String String)
    (hn : (custom.map (·.1)).Nodup)
    (hcase : ∀ a ∈ "Content-type" :: custom.map (·.1), ∀ b ∈ "Content-type" :: custom.map (·.1), SameLetters a b → a = b) :
    ∃ req, (capPost parse server order url payload custom).2 = [req] ∧
    (∀ p ∈ custom, req.headers.get? (capitalize p.1) = some p.2) ∧
    ("Content-type" ∉ custom.map (·.1) → req.headers.get? "Content-type" = some "application/llsd+xml") ∧
    ∀ n, n ≠ "Content-type" → (∀ p ∈ custom, capitalize p.1 ≠ n) → req.headers.get? n = none := by
  refine ⟨⟨url, .llsd payload, wireHeaders (order (postHeaders custom))⟩, ?_, ?_⟩
  · rcases hp with ⟨l, rfl⟩ | ⟨m, rfl⟩ <;> (unfold capPost; simp only; split <;> rfl)
  show (∀ p ∈ custom, (wireHeaders (order (postHeaders custom))).get? (capitalize p.1) = some p.2) ∧
    ("Content-type" ∉ custom.map (·.1) → (wireHeaders (order (postHeaders custom))).get? "Content-type" = some "application/llsd+xml") ∧
    ∀ n, n ≠ "Content-type" → (∀ p ∈ custom, capitalize p.1 ≠ n) → (wireHeaders (order (postHeaders custom))).get? n = none
  have hnod : (postHeaders custom).keys.Nodup := foldl_set_keys_nodup custom _ (by simp [Dict.keys])
  have hget : ∀ k, (postHeaders custom).get? k = (custom.get? k).or (Dict.get? [("Content-type", "application/llsd+xml")] k) :=
    fun k => foldl_set_get custom _ k hn
  have hperm := ho (postHeaders custom)
  have hnod' : ((order (postHeaders custom)).map (·.1)).Nodup := (hperm.map _).nodup_iff.mpr hnod
  have hkeys : ∀ p ∈ postHeaders custom, p.1 ∈ "Content-type" :: custom.map (·.1) := by
    intro p hp
    have h1 : (postHeaders custom).get? p.1 = some p.2 := Dict.get?_eq_some_of_mem hnod hp
    rw [hget] at h1
    cases hc : custom.get? p.1 with
    | some v => exact List.mem_cons_of_mem _ (Dict.mem_keys_of_get? hc)
    | none =>
      rw [hc, Option.none_or] at h1
      have h2 := Dict.mem_keys_of_get? h1
      simp only [Dict.keys, List.map_cons, List.map_nil, List.mem_singleton] at h2
      rw [h2]; exact List.mem_cons_self
  have hcap : ∀ k ∈ "Content-type" :: custom.map (·.1), ∀ v, (postHeaders custom).get? k = some v →
      (wireHeaders (order (postHeaders custom))).get? (capitalize k) = some v := by
    intro k hk v hv
    have hm : (k, v) ∈ order (postHeaders custom) := hperm.mem_iff.mpr (Dict.mem_of_get? hv)
    exact wireHeaders_mem _ [] hm hnod' (fun p hp he => hcase _ (hkeys p (hperm.mem_iff.mp hp)) _ hk ((C43_header_names _ _).2.2.2.mp he))
  have h3 : capitalize "Content-type" = "Content-type" := by decide +kernel
  refine ⟨fun p hp => ?_, fun hct => ?_, fun n hn1 hn2 => ?_⟩
  · have hpm : p.1 ∈ custom.map (·.1) := List.mem_map.mpr ⟨p, hp, rfl⟩
    refine hcap p.1 (List.mem_cons_of_mem _ hpm) p.2 ?_
    rw [hget, Dict.get?_eq_some_of_mem (d := custom) hn (show (p.1, p.2) ∈ custom from hp), Option.some_or]
  · have h1 : (postHeaders custom).get? "Content-type" = some "application/llsd+xml" := by
      rw [hget, (Dict.get?_eq_none_iff custom _).mpr hct]
      rfl
    have h2 := hcap "Content-type" List.mem_cons_self _ h1
    rwa [h3] at h2
  · refine (wireHeaders_get _ [] n (fun p hp => ?_)).trans rfl
    have hk := hkeys p (hperm.mem_iff.mp hp)
    rcases List.mem_cons.mp hk with hk | hk
    · rw [hk, h3]; exact hn1.symm
    · obtain ⟨q, hq, he⟩ := List.mem_map.mp hk
      rw [← he]; exact hn2 q hq

/-- Example: a replaced content type and a further header. -/
example : wireHeaders (postHeaders [("Content-type", "text/plain"), ("X-Retry", "1")]) = [("Content-type", "text/plain"), ("X-retry", "1")] := by
  decide +kernel

/-- **C43, headers, the exception:** with the spelling `Content-Type`, depending on the iteration order of the dictionary the default wins. -/
theorem C43_header_case (parse : Bytes → Option Llsd) (server : HttpRequest → HttpOutcome) (url : String) : ∃ order, IsOrder order ∧
    ((capPost parse server order url (.map []) [("Content-Type", "text/plain")]).2.map (·.headers.get? "Content-type")) = [some "application/llsd+xml"] := by
  refine ⟨List.reverse, isOrder_reverse, ?_⟩
  have h : (wireHeaders ((postHeaders [("Content-Type", "text/plain")]).reverse)).get? "Content-type" = some "application/llsd+xml" := by decide +kernel
  unfold capPost
  simp only
  split <;> simp only [List.map_cons, List.map_nil, h]

end Pyogp
