import Verif.Proofs.Http
import Verif.Proofs.Caps

namespace Pyogp
open Spec

/-! ## C104

The HTTP client: which requests the server gets, and what becomes of its replies. -/

theorem get?_joinStep (n : String) (vs : List (String × String)) : ∀ d : Dict String String,
    (vs.foldl joinHeader d).get? n =
    match d.get? n, (vs.filter (fun p => lower p.1 = n)).map (·.2) with
    | none, [] => none
    | some p, l => some (l.foldl (fun text w => text ++ ", " ++ w) p)
    | none, v :: l => some (l.foldl (fun text w => text ++ ", " ++ w) v) := by
  induction vs with
  | nil => intro d; rw [List.foldl_nil]; cases d.get? n <;> rfl
  | cons q vs ih =>
    intro d
    rw [List.foldl_cons, ih]
    by_cases hq : lower q.1 = n
    · subst hq
      have hf : List.filter (fun p => decide (lower p.1 = lower q.1)) (q :: vs) = q :: List.filter (fun p => decide (lower p.1 = lower q.1)) vs := by
        rw [List.filter_cons_of_pos (by simp)]
      rw [hf, List.map_cons]
      unfold joinHeader
      cases hd : d.get? (lower q.1) with
      | none => simp only [Dict.get?_set_self]
      | some prev => simp only [Dict.get?_set_self, List.foldl_cons]
    · have hf : List.filter (fun p => decide (lower p.1 = n)) (q :: vs) = List.filter (fun p => decide (lower p.1 = n)) vs := by
        rw [List.filter_cons_of_neg (by simpa using hq)]
      rw [hf]
      have : (joinHeader d q).get? n = d.get? n := by
        unfold joinHeader
        split
        · rw [Dict.get?_set_ne _ _ hq]
        · rw [Dict.get?_set_ne _ _ hq]
      rw [this]

theorem get?_joinHeaders (hs : List (String × String)) (n : String) (hn : n.toList.map Char.toLower = n.toList) :
    (joinHeaders hs).get? n = headerValue hs n := by
  unfold joinHeaders headerValue
  rw [get?_joinStep, linesNamed_lower hn]
  have : Dict.get? ([] : Dict String String) n = none := rfl
  rw [this]
  cases (hs.filter (fun p => lower p.1 = n)).map (·.2) <;> rfl

theorem resultOf_client {r : RawReply} {u : UrlResult} (h : ResultOf r u) : CallResult r u.toClient := by
  cases r with
  | failed e => cases u <;> first | exact h | exact absurd h id
  | reply code msg hs body =>
    cases u with
    | otherError e => exact absurd h id
    | httpError c m b => exact ⟨h.1, h.2.1, h.2.2.1, h.2.2.2⟩
    | response c m hs' b =>
      obtain ⟨h1, rfl, rfl, rfl, rfl⟩ := h
      exact ⟨h1, rfl, get?_joinHeaders _, rfl⟩

theorem httpCall_ended (resolve : String → String → String) (server : Server) (url : String) (data : Option Bytes) (headers : Dict String String) :
    ∃ u, (httpCall resolve server url data headers).1 = u.toClient ∧
      Ended resolve server ⟨url, data, wireHeaders headers⟩ u (httpCall resolve server url data headers).2 := by
  obtain ⟨u, reqs, e, h⟩ := openUrl_first (resolve := resolve) (server := server) url data (wireHeaders headers)
  refine ⟨u, ?_, ?_⟩
  · unfold httpCall
    simp only [e]
  · unfold httpCall
    simp only [e]
    exact h

/-- **C104, requests.** The server gets the request as it was made (a POST always has a content type); and after that, only if it redirects the client, at most 37
more requests, each to the place the last reply sent the client to, without data, and with all headers that are not about the data. -/
theorem C104_requests (resolve : String → String → String) (server : Server) (url : String) (data : Option Bytes) (headers : Dict String String) :
    let reqs := (httpCall resolve server url data headers).2
    (∃ first rest, reqs = first :: rest ∧ first.url = url ∧ first.data = data ∧
      (∀ n, n ≠ "Content-type" → first.headers.get? n = (wireHeaders headers).get? n) ∧
      first.headers.get? "Content-type" =
        (match (wireHeaders headers).get? "Content-type", data with
          | some v, _ => some v
          | none, some _ => some "application/x-www-form-urlencoded"
          | none, none => none) ∧
      ∀ x ∈ rest, x.data = none ∧ ∀ p, p ∈ x.headers ↔ p ∈ wireHeaders headers ∧ ¬ AboutData p.1) ∧
    FollowsRedirects resolve server reqs ∧ reqs.length ≤ 38 := by
  obtain ⟨u, _, h⟩ := httpCall_ended resolve server url data headers
  refine ⟨?_, h.follows, h.bound⟩
  obtain ⟨rest, e, hr⟩ := h.start
  refine ⟨_, rest, e, onWire_url _, onWire_data _, ?_, ?_, ?_⟩
  · intro n hn
    unfold RawRequest.onWire
    split
    · exact Dict.get?_set_ne _ _ (Ne.symm hn)
    · rfl
  · unfold RawRequest.onWire
    simp only
    cases hw : (wireHeaders headers).get? "Content-type" with
    | some v => simp [hw]
    | none =>
      cases data with
      | none => simp [hw]
      | some b => simp [Dict.get?_set_self]
  · intro x hx
    refine ⟨(hr x hx).1, fun p => ?_⟩
    rw [(hr x hx).2]
    simp only [generalHeaders, List.mem_filter, decide_eq_true_eq, AboutData, not_or,
      lower_iff (n := "content-length") (by decide +kernel), lower_iff (n := "content-type") (by decide +kernel), ne_eq]

/-- **C104, result.** The reply to the last request decides: a success is returned with its status, headers and body; anything else is raised as `HTTPError` with its code,
reason and body; a failure of the connection is passed on.  A redirect is not followed only for the reasons given. -/
theorem C104_result (resolve : String → String → String) (server : Server) (url : String) (data : Option Bytes) (headers : Dict String String) :
    let call := httpCall resolve server url data headers
    ∃ init last, call.2 = init ++ [last] ∧ CallResult (server init last) call.1 ∧
      ∀ code msg hs body place, server init last = .reply code msg hs body → SendsTo (server init last) place →
        Refuses resolve server call.2 last code place := by
  obtain ⟨u, e, h⟩ := httpCall_ended resolve server url data headers
  obtain ⟨init, last, e', hr, hf⟩ := h.last
  refine ⟨init, last, e', ?_, ?_⟩
  · rw [e]; exact resultOf_client hr
  · intro code msg hs body place h1 h2
    exact hf code place h2 ⟨msg, hs, body, h1⟩

/-- **C104, once.** Data is sent exactly once, and to the URL it was meant for, whatever the server does. -/
theorem C104_data_once (resolve : String → String → String) (server : Server) (url : String) (b : Bytes) (headers : Dict String String) :
    ((httpCall resolve server url (some b) headers).2.filter (fun x => x.data.isSome)).map (fun x => (x.url, x.data)) = [(url, some b)] := by
  obtain ⟨⟨first, rest, e, hu, hd, _, _, hr⟩, _⟩ := C104_requests resolve server url (some b) headers
  rw [e, List.filter_cons_of_pos (by rw [hd]; rfl)]
  have : rest.filter (fun x => x.data.isSome) = [] := by
    rw [List.filter_eq_nil_iff]
    intro x hx
    rw [(hr x hx).1]
    simp
  rw [this, List.map_cons, hu, hd]
  rfl

/-- **C104, plain.** A server that does not redirect gets one request. -/
theorem C104_no_redirect (resolve : String → String → String) (server : Server) (url : String) (data : Option Bytes) (headers : Dict String String)
    (hs : ∀ done r place, ¬ SendsTo (server done r) place) :
    ∃ r, (httpCall resolve server url data headers).2 = [r] ∧ CallResult (server [] r) (httpCall resolve server url data headers).1 := by
  obtain ⟨⟨first, rest, e, _⟩, hfol, _⟩ := C104_requests resolve server url data headers
  obtain ⟨init, last, e', hr, _⟩ := C104_result resolve server url data headers
  cases rest with
  | nil =>
    refine ⟨first, e, ?_⟩
    rw [e] at e'
    have : init = [] ∧ last = first := by
      cases init with
      | nil => simp at e'; exact ⟨rfl, e'.symm⟩
      | cons a init => simp at e'
    obtain ⟨rfl, rfl⟩ := this
    exact hr
  | cons b rest =>
    exfalso
    obtain ⟨r, place, h1, h2, _⟩ := hfol 0 first b (by rw [e]; rfl) (by rw [e]; rfl)
    unfold replyTo at h1
    rw [e] at h1
    injection h1 with h1
    rw [← h1] at h2
    exact hs _ _ _ h2

theorem capResultOf_seen {decode : Option String → Bytes → Except CapExc Llsd} {url method : String} {reply : RawReply} {c : ClientResult}
    (h : CallResult reply c) :
    CapResultOf decode url method reply (match c.seen with
      | .failure f => .error (restErrorE url method f)
      | .otherError e => .error (.other e)
      | .response ct body => decode ct body) := by
  cases reply with
  | failed e =>
    cases c with
    | otherError e' => exact congrArg _ (congrArg _ h)
    | httpError f => exact absurd h id
    | response r => exact absurd h id
  | reply code msg hs body =>
    cases c with
    | otherError e' => exact absurd h id
    | httpError f =>
      obtain ⟨h1, h2, h3, h4⟩ := h
      refine ⟨fun h' => absurd h' h1, fun h' => ?_, fun _ h' => ⟨f.msg, h3, ?_⟩⟩
      · simp only [ClientResult.seen, restErrorE]
        rw [if_pos (h2.trans h')]
      · simp only [ClientResult.seen, restErrorE]
        rw [if_neg (by rw [h2]; exact h'), h2, h4]
    | response r =>
      obtain ⟨h1, h2, h3, h4⟩ := h
      refine ⟨fun _ => ?_, fun h' => absurd h1 (by omega), fun h' => absurd h1 h'⟩
      simp only [ClientResult.seen, h3 "content-type" (by decide +kernel), h4]

/-- **C104, capabilities: POST.** However the server redirects the client, the payload is sent once, to the capability, and the reply to the last request decides what
the call returns or raises. -/
theorem C104_capability_post (parse : Bytes → Except String Llsd) (format : Llsd → Bytes) (resolve : String → String → String) (server : Server)
    (order : Dict String String → Dict String String) (url : String) (payload : Llsd) (custom : Dict String String)
    (hp : (∃ l, payload = .arr l) ∨ ∃ m, payload = .map m) :
    let call := capPostHttp parse format resolve server order url payload custom
    (call.2.filter (fun x => x.data.isSome)).map (fun x => (x.url, x.data)) = [(url, some (format payload))] ∧ call.2.length ≤ 38 ∧
    FollowsRedirects resolve server call.2 ∧
    ∃ init last, call.2 = init ++ [last] ∧ CapResultOf (responseHandlerE parse) url "POST" (server init last) call.1 := by
  have e2 : (capPostHttp parse format resolve server order url payload custom).2 =
      (httpCall resolve server url (some (format payload)) (wireHeaders (order (postHeaders custom)))).2 := by
    rcases hp with ⟨l, rfl⟩ | ⟨m, rfl⟩
    all_goals
      simp only [capPostHttp, capPostE]
      split <;> simp [carryOut]
  have e1 : (capPostHttp parse format resolve server order url payload custom).1 =
      (match (httpCall resolve server url (some (format payload)) (wireHeaders (order (postHeaders custom)))).1.seen with
      | .failure f => .error (restErrorE url "POST" f)
      | .otherError e => .error (.other e)
      | .response ct body => responseHandlerE parse ct body) := by
    rcases hp with ⟨l, rfl⟩ | ⟨m, rfl⟩
    all_goals
      simp only [capPostHttp, capPostE, carryOut]
      split <;> rename_i h <;> simp [h]
  have h1 := C104_requests resolve server url (some (format payload)) (wireHeaders (order (postHeaders custom)))
  obtain ⟨init, last, h2, h3, _⟩ := C104_result resolve server url (some (format payload)) (wireHeaders (order (postHeaders custom)))
  refine ⟨?_, ?_, ?_, init, last, ?_, ?_⟩
  · rw [e2]; exact C104_data_once resolve server url _ _
  · rw [e2]; exact h1.2.2
  · rw [e2]; exact h1.2.1
  · rw [e2]; exact h2
  · rw [e1]; exact capResultOf_seen h3

/-- **C104, capabilities: GET.** The same, without data and without headers. -/
theorem C104_capability_get (parse : Bytes → Except String Llsd) (format : Llsd → Bytes) (resolve : String → String → String) (server : Server)
    (url : String) :
    let call := capGetHttp parse format resolve server url
    (∀ x ∈ call.2, x.data = none ∧ x.headers = []) ∧ (∃ first rest, call.2 = first :: rest ∧ first.url = url) ∧ call.2.length ≤ 38 ∧
    FollowsRedirects resolve server call.2 ∧
    ∃ init last, call.2 = init ++ [last] ∧
      CapResultOf (fun ct body =>
        match ct with
        | none => .error (.other .keyError)
        | some ct => if beforeSemicolon ct = "application/llsd+xml" then llsdDeserializeE parse body
            else .error (.deserializerNotFound (beforeSemicolon ct))) url "GET" (server init last) call.1 := by
  have e2 : (capGetHttp parse format resolve server url).2 = (httpCall resolve server url none []).2 := by
    simp only [capGetHttp, capGetE]
    split
    · simp [carryOut, wireHeaders]
    · simp [carryOut, wireHeaders]
    · simp [carryOut, wireHeaders]
    · split <;> simp [carryOut, wireHeaders]
  have e1 : (capGetHttp parse format resolve server url).1 =
      (match (httpCall resolve server url none []).1.seen with
      | .failure f => .error (restErrorE url "GET" f)
      | .otherError e => .error (.other e)
      | .response ct body => (match ct with
        | none => .error (.other .keyError)
        | some ct => if beforeSemicolon ct = "application/llsd+xml" then llsdDeserializeE parse body
            else .error (.deserializerNotFound (beforeSemicolon ct)))) := by
    simp only [capGetHttp, capGetE, carryOut, wireHeaders, List.foldl_nil]
    cases (httpCall resolve server url none []).1.seen with
    | failure f => rfl
    | otherError e => rfl
    | response ct body =>
      cases ct with
      | none => rfl
      | some ct => simp only; split <;> rfl
  obtain ⟨⟨first, rest, h4, h5, h6, h7, h8, h9⟩, h10, h11⟩ := C104_requests resolve server url none []
  obtain ⟨init, last, h2, h3, _⟩ := C104_result resolve server url none []
  have nil : ∀ h : Dict String String, (∀ n, h.get? n = none) → h = [] := by
    intro h hh
    cases h with
    | nil => rfl
    | cons p h => have := hh p.1; simp [Dict.get?] at this
  refine ⟨?_, ?_, ?_, ?_, init, last, ?_, ?_⟩
  · rw [e2, h4]
    intro x hx
    rcases List.mem_cons.1 hx with rfl | hx
    · refine ⟨h6, nil _ fun n => ?_⟩
      by_cases hn : n = "Content-type"
      · subst hn; rw [h8]; rfl
      · rw [h7 n hn]; rfl
    · refine ⟨(h9 x hx).1, ?_⟩
      rw [List.eq_nil_iff_forall_not_mem]
      intro p hp
      exact absurd (((h9 x hx).2 p).1 hp).1 (by simp [wireHeaders])
  · rw [e2]; exact ⟨first, rest, h4, h5⟩
  · rw [e2]; exact h11
  · rw [e2]; exact h10
  · rw [e2]; exact h2
  · rw [e1]; exact capResultOf_seen h3

/-- The bound of the model is none: with any larger one the result is the same. -/
theorem C104_bound_enough (resolve : String → String → String) (server : Server) (req : RawRequest) (n : Nat) (hn : 38 ≤ n) :
    openUrl resolve server n [] [] req = openUrl resolve server 38 [] [] req ∧ (openUrl resolve server n [] [] req).1 ≠ none := by
  obtain ⟨u, reqs, e, _⟩ := openUrl_ended (resolve := resolve) (server := server) req 38 [] [] req (following_start _) (by simp)
  have h : openUrl resolve server n [] [] req = openUrl resolve server 38 [] [] req := by
    have := openUrl_mono (resolve := resolve) (server := server) 38 (n - 38) [] [] req (by rw [e]; simp)
    rwa [Nat.add_sub_cancel' hn] at this
  exact ⟨h, by rw [h, e]; simp⟩

/-- Thirty-eight requests do happen: a server that sends the client around nine places. -/
theorem C104_bound_tight :
    let server : Server := fun done _ => .reply 302 "Found" [("Location", String.ofList (List.replicate (done.length % 9) 'x'))] []
    let server' : Server := fun done r => if done.length = 36 then .reply 302 "Found" [("Location", "y")] [] else server done r
    (httpCall (fun _ l => l) server' "cap" none []).2.length = 38 ∧
    (httpCall (fun _ l => l) server "cap" none []).2.length = 37 := by
  decide +kernel

/-- An example: a POST that is answered with a redirect to another place.  That place gets a GET without the data, but with the caller's own headers; its
answer is the answer to the POST. -/
theorem C104_redirected_post :
    let server : Server := fun _ r =>
      if r.url = "http://sim/cap" then .reply 302 "Found" [("Location", "http://elsewhere/")] []
      else .reply 200 "OK" [("Content-Type", "text/plain")] [104, 105]
    httpCall (fun _ l => l) server "http://sim/cap" (some [1, 2, 3]) [("Content-type", "application/llsd+xml"), ("X-Secret", "s")] =
      (.response ⟨"200 OK", [("content-type", "text/plain")], [104, 105]⟩,
       [⟨"http://sim/cap", some [1, 2, 3], [("Content-type", "application/llsd+xml"), ("X-secret", "s")]⟩,
        ⟨"http://elsewhere/", none, [("X-secret", "s")]⟩]) := by
  decide +kernel

end Pyogp
