import Verif.Spec.Http
import Verif.Proofs.Dict

namespace Pyogp
open Spec

variable {resolve : String → String → String} {server : Server}

/-! ### Header names -/

theorem lower_iff {n : String} (hn : n.toList.map Char.toLower = n.toList) (a : String) : lower a = n ↔ SameLetters a n := by
  unfold lower SameLetters
  rw [hn]
  constructor
  · intro h; rw [← h, String.toList_ofList]
  · intro h; rw [h, String.ofList_toList]

theorem linesNamed_lower {n : String} (hn : n.toList.map Char.toLower = n.toList) (hs : List (String × String)) :
    linesNamed n hs = (hs.filter (fun p => lower p.1 = n)).map (·.2) := by
  unfold linesNamed
  congr 1
  refine List.filter_congr fun p _ => ?_
  rw [decide_eq_decide]
  exact (lower_iff hn p.1).symm

theorem firstHeader_eq {n : String} (hn : n.toList.map Char.toLower = n.toList) (hs : List (String × String)) :
    firstHeader n hs = (linesNamed n hs).head? := by
  rw [linesNamed_lower hn, List.head?_map, List.head?_filter]
  rfl

theorem redirectHeader_eq (hs : List (String × String)) :
    redirectHeader hs = (linesNamed "location" hs ++ linesNamed "uri" hs).head? := by
  unfold redirectHeader
  rw [firstHeader_eq (by decide +kernel), firstHeader_eq (by decide +kernel), List.head?_append]
  cases (linesNamed "location" hs).head? <;> rfl

theorem quoted_quoteSpaces (s : String) : Quoted s.toList (quoteSpaces s).toList := by
  unfold quoteSpaces
  rw [String.toList_ofList]
  induction s.toList with
  | nil => exact .nil
  | cons c l ih =>
    rw [List.flatMap_cons]
    by_cases h : c = ' '
    · subst h; exact .space ih
    · rw [if_neg h]; exact .char h ih

/-! ### The places gone to -/

/-- The place the reply to the request with this index sends to. -/
def placeOf (resolve : String → String → String) (server : Server) (reqs : List RawRequest) (i : Nat) : String :=
  match reqs[i]?, replyTo server reqs i with
  | some a, some (.reply _ _ hs _) => resolve a.url ((linesNamed "location" hs ++ linesNamed "uri" hs).head?.getD "")
  | _, _ => ""

theorem wentTo_eq (reqs : List RawRequest) :
    wentTo resolve server reqs = (List.range (reqs.length - 1)).map (placeOf resolve server reqs) := rfl

theorem replyTo_append {reqs more : List RawRequest} {i : Nat} (h : i < reqs.length) :
    replyTo server (reqs ++ more) i = replyTo server reqs i := by
  unfold replyTo
  rw [List.getElem?_append_left h, List.take_append_of_le_length (by omega)]

theorem placeOf_append {reqs more : List RawRequest} {i : Nat} (h : i < reqs.length) :
    placeOf resolve server (reqs ++ more) i = placeOf resolve server reqs i := by
  unfold placeOf
  rw [replyTo_append h, List.getElem?_append_left h]

theorem wentTo_snoc (done : List RawRequest) (w w' : RawRequest) :
    wentTo resolve server (done ++ [w] ++ [w']) =
      wentTo resolve server (done ++ [w]) ++ [placeOf resolve server (done ++ [w]) done.length] := by
  rw [wentTo_eq, wentTo_eq]
  have e1 : (done ++ [w] ++ [w']).length - 1 = done.length + 1 := by simp
  have e2 : (done ++ [w]).length - 1 = done.length := by simp
  rw [e1, e2, List.range_succ, List.map_append, List.map_singleton]
  congr 1
  · refine List.map_congr_left fun i hi => ?_
    have := List.mem_range.1 hi
    rw [placeOf_append (by simp; omega)]
  · rw [placeOf_append (by simp)]

theorem wentTo_length (done : List RawRequest) (w : RawRequest) : (wentTo resolve server (done ++ [w])).length = done.length := by
  rw [wentTo_eq]; simp

theorem replyTo_last (done : List RawRequest) (w : RawRequest) : replyTo server (done ++ [w]) done.length = some (server done w) := by
  unfold replyTo
  simp

/-! ### The table of visits -/

structure Visits (visited : Dict String Nat) (ts : List String) : Prop where
  nodup : visited.keys.Nodup
  count : ∀ u, (visited.get? u).getD 0 = ts.count u
  keys : ∀ u, u ∈ visited.keys ↔ u ∈ ts
  le4 : ∀ u, ts.count u ≤ 4
  total : visited.length ≤ 9 ∨ (visited.length = 10 ∧ ts.length ≤ 37)

theorem length_le_mul (k : Nat) : ∀ (l ts : List String), (∀ u ∈ ts, u ∈ l) → (∀ u, ts.count u ≤ k) → ts.length ≤ k * l.length
  | [], ts, h, _ => by
    cases ts with
    | nil => simp
    | cons a ts => exact absurd (h a List.mem_cons_self) (List.not_mem_nil)
  | a :: l, ts, h, hc => by
    have h1 := length_le_mul k l (ts.filter (· ≠ a)) (by
      intro u hu
      rw [List.mem_filter] at hu
      have hne : u ≠ a := by simpa using hu.2
      exact (List.mem_cons.1 (h u hu.1)).resolve_left hne) (by
      intro u
      exact Nat.le_trans (List.Sublist.count_le u List.filter_sublist) (hc u))
    have h2 : ts.length = ts.count a + (ts.filter (· ≠ a)).length := by
      rw [List.count_eq_countP, ← List.countP_eq_length_filter]
      have := List.length_eq_countP_add_countP (p := (· == a)) (l := ts)
      rw [this]
      congr 1
      refine List.countP_congr fun x _ => ?_
      simp
    have := hc a
    rw [h2, List.length_cons, Nat.mul_succ]
    omega

theorem Visits.length_le {visited : Dict String Nat} {ts : List String} (h : Visits visited ts) : ts.length ≤ 37 := by
  rcases h.total with ht | ht
  · have := length_le_mul 4 visited.keys ts (fun u hu => (h.keys u).2 hu) h.le4
    have e : visited.keys.length = visited.length := by simp [Dict.keys]
    rw [e] at this
    omega
  · exact ht.2

theorem Visits.add {visited : Dict String Nat} {ts : List String} (h : Visits visited ts) {u : String}
    (hc : ¬ (4 ≤ (visited.get? u).getD 0 ∨ 10 ≤ visited.length)) :
    Visits (visited.set u ((visited.get? u).getD 0 + 1)) (ts ++ [u]) := by
  have h4 : (visited.get? u).getD 0 < 4 := by omega
  have h10 : visited.length < 10 := by omega
  have h9 : visited.length ≤ 9 := by omega
  have hk := Dict.keys_set visited u ((visited.get? u).getD 0 + 1)
  have hlen : ∀ d : Dict String Nat, d.keys.length = d.length := fun d => by simp [Dict.keys]
  refine ⟨?_, ?_, ?_, ?_, ?_⟩
  · rw [hk]
    split
    · exact h.nodup
    · rename_i hn
      rw [List.nodup_append]
      exact ⟨h.nodup, by simp, by simp; intro a ha hau; exact hn (hau ▸ ha)⟩
  · intro x
    rw [Dict.get?_set, List.count_append]
    split
    · rename_i e; subst e; simp [h.count]
    · rename_i hne
      rw [h.count x]
      simp [List.count_singleton, hne]
  · intro x
    rw [hk]
    split
    · rename_i hm
      rw [h.keys x]
      simp only [List.mem_append, List.mem_singleton]
      constructor
      · exact .inl
      · rintro (h' | rfl)
        · exact h'
        · exact (h.keys _).1 hm
    · simp [h.keys x]
  · intro x
    rw [List.count_append]
    by_cases hx : u = x
    · subst hx
      have := h.count u
      simp
      omega
    · have := h.le4 x
      simp [List.count_singleton, hx]
      omega
  · have e : (visited.set u ((visited.get? u).getD 0 + 1)).length = if u ∈ visited.keys then visited.length else visited.length + 1 := by
      rw [← hlen, hk]
      split <;> simp [hlen]
    rw [e]
    split
    · left; exact h9
    · by_cases h8 : visited.length ≤ 8
      · left; omega
      · right
        have := length_le_mul 4 visited.keys ts (fun u hu => (h.keys u).2 hu) h.le4
        rw [hlen] at this
        simp only [List.length_append, List.length_singleton]
        omega

/-! ### The calls -/

theorem onWire_url (r : RawRequest) : r.onWire.url = r.url := by unfold RawRequest.onWire; split <;> rfl
theorem onWire_data (r : RawRequest) : r.onWire.data = r.data := by unfold RawRequest.onWire; split <;> rfl
theorem onWire_redirected (r : RawRequest) (u : String) : (redirected r u).onWire = redirected r u := by
  unfold RawRequest.onWire redirected
  simp

/-- Headers that are not about the data. -/
def generalHeaders (h : Dict String String) : Dict String String :=
  h.filter (fun p => lower p.1 ≠ "content-length" ∧ lower p.1 ≠ "content-type")

/-- What holds while the client follows redirects. -/
structure Following (resolve : String → String → String) (server : Server) (first : RawRequest) (visited : Dict String Nat) (done : List RawRequest)
    (req : RawRequest) : Prop where
  visits : Visits visited (wentTo resolve server (done ++ [req.onWire]))
  follows : FollowsRedirects resolve server (done ++ [req.onWire])
  start : ∃ rest, done ++ [req.onWire] = first.onWire :: rest ∧ ∀ x ∈ rest, x.data = none ∧ x.headers = generalHeaders first.headers
  headers : generalHeaders req.headers = generalHeaders first.headers

theorem following_start (first : RawRequest) : Following resolve server first [] [] first where
  visits := by
    refine ⟨List.nodup_nil, fun u => rfl, fun u => ?_, fun u => ?_, .inl (by simp)⟩
    · simp [wentTo_eq, Dict.keys]
    · simp [wentTo_eq]
  follows := by
    intro i a b _ h2
    simp at h2
  start := ⟨[], rfl, fun x h => absurd h List.not_mem_nil⟩
  headers := rfl

theorem Following.next {first : RawRequest} {visited : Dict String Nat} {done : List RawRequest} {req : RawRequest}
    (h : Following resolve server first visited done req) {code : Int} {msg : String} {hs : List (String × String)} {body : Bytes} {l : String}
    (hr : server done req.onWire = .reply code msg hs body) (hc : code ∈ [301, 302, 303, 307]) (hl : redirectHeader hs = some l)
    (hv : ¬ (4 ≤ (visited.get? (resolve req.url l)).getD 0 ∨ 10 ≤ visited.length)) :
    Following resolve server first (visited.set (resolve req.url l) ((visited.get? (resolve req.url l)).getD 0 + 1)) (done ++ [req.onWire])
      (redirected req (resolve req.url l)) := by
  have hp : placeOf resolve server (done ++ [req.onWire]) done.length = resolve req.url l := by
    unfold placeOf
    rw [replyTo_last, hr]
    simp only [List.getElem?_concat_length, ← redirectHeader_eq, hl, onWire_url, Option.getD_some]
  refine ⟨?_, ?_, ?_, ?_⟩
  · rw [onWire_redirected, wentTo_snoc, hp]
    exact h.visits.add hv
  · rw [onWire_redirected]
    intro i a b ha hb
    have hlt : i + 1 < (done ++ [req.onWire] ++ [redirected req (resolve req.url l)]).length := by
      have := List.getElem?_eq_some_iff.1 hb
      exact this.1
    simp only [List.length_append, List.length_singleton] at hlt
    by_cases hi : i + 1 < (done ++ [req.onWire]).length
    · rw [List.getElem?_append_left (by omega)] at ha
      rw [List.getElem?_append_left hi] at hb
      obtain ⟨r, place, h1, h2, h3⟩ := h.follows i a b ha hb
      exact ⟨r, place, by rw [replyTo_append (by omega)]; exact h1, h2, h3⟩
    · have hi' : i = done.length := by simp at hi; omega
      subst hi'
      have ea : a = req.onWire := by
        rw [List.getElem?_append_left (by simp)] at ha
        simpa using ha.symm
      have eb : b = redirected req (resolve req.url l) := by
        have e : done.length + 1 = (done ++ [req.onWire]).length := by simp
        rw [e, List.getElem?_concat_length] at hb
        simpa using hb.symm
      subst ea eb
      refine ⟨.reply code msg hs body, l, by rw [replyTo_append (by simp), replyTo_last, hr], ⟨code, msg, hs, body, rfl, ?_, by rw [← redirectHeader_eq]; exact hl⟩, ?_⟩
      · simpa using hc
      · rw [onWire_url]; exact quoted_quoteSpaces _
  · obtain ⟨rest, e, hrest⟩ := h.start
    refine ⟨rest ++ [redirected req (resolve req.url l)], by rw [onWire_redirected, e]; rfl, ?_⟩
    intro x hx
    rw [List.mem_append, List.mem_singleton] at hx
    rcases hx with hx | rfl
    · exact hrest x hx
    · exact ⟨rfl, h.headers⟩
  · rw [← h.headers]
    simp [generalHeaders, redirected]

/-- The end of a call: the reply to the last request. -/
structure Ended (resolve : String → String → String) (server : Server) (first : RawRequest) (u : UrlResult) (reqs : List RawRequest) : Prop where
  follows : FollowsRedirects resolve server reqs
  start : ∃ rest, reqs = first.onWire :: rest ∧ ∀ x ∈ rest, x.data = none ∧ x.headers = generalHeaders first.headers
  bound : reqs.length ≤ 38
  last : ∃ init last, reqs = init ++ [last] ∧ ResultOf (server init last) u ∧
    ∀ code place, SendsTo (server init last) place → (∃ msg hs body, server init last = .reply code msg hs body) → Refuses resolve server reqs last code place

theorem Following.end_ {first : RawRequest} {visited : Dict String Nat} {done : List RawRequest} {req : RawRequest}
    (h : Following resolve server first visited done req) {u : UrlResult} (hr : ResultOf (server done req.onWire) u)
    (hf : ∀ code place, SendsTo (server done req.onWire) place → (∃ msg hs body, server done req.onWire = .reply code msg hs body) →
      Refuses resolve server (done ++ [req.onWire]) req.onWire code place) :
    Ended resolve server first u (done ++ [req.onWire]) := by
  refine ⟨h.follows, h.start, ?_, done, req.onWire, rfl, hr, hf⟩
  have := h.visits.length_le
  rw [wentTo_length] at this
  simp; omega

theorem openUrl_ended (first : RawRequest) : ∀ (n : Nat) (visited : Dict String Nat) (done : List RawRequest) (req : RawRequest),
    Following resolve server first visited done req → 38 ≤ n + done.length →
    ∃ u reqs, openUrl resolve server n visited done req = (some u, reqs) ∧ Ended resolve server first u reqs
  | 0, visited, done, req, h, hn => by
    have := h.visits.length_le
    rw [wentTo_length] at this
    omega
  | n + 1, visited, done, req, h, hn => by
    unfold openUrl
    simp only
    cases hr : server done req.onWire with
    | failed e =>
      refine ⟨_, _, rfl, h.end_ (by rw [hr]; rfl) ?_⟩
      rintro code place _ ⟨msg, hs, body, e'⟩
      rw [hr] at e'
      exact absurd e' (by simp)
    | reply code msg hs body =>
      simp only
      split
      · rename_i hc
        refine ⟨_, _, rfl, h.end_ (by rw [hr]; exact ⟨hc, rfl, rfl, rfl, rfl⟩) ?_⟩
        rintro code' place ⟨c, m, hs', b, e, hc', _⟩ _
        rw [hr] at e
        injection e with e
        omega
      · rename_i hc
        split
        · rename_i hm
          cases hl : redirectHeader hs with
          | none =>
            refine ⟨_, _, rfl, h.end_ (by rw [hr]; exact ⟨hc, rfl, .inl rfl, rfl⟩) ?_⟩
            rintro code' place ⟨c, m, hs', b, e, _, hl'⟩ _
            rw [hr] at e
            injection e with _ _ e
            rw [← e, ← redirectHeader_eq, hl] at hl'
            exact absurd hl' (by simp)
          | some l =>
            simp only
            have key : ∀ code' place, SendsTo (server done req.onWire) place → (∃ msg hs body, server done req.onWire = .reply code' msg hs body) →
                place = l ∧ code' = code := by
              rintro code' place ⟨c, m, hs', b, e, _, hl'⟩ ⟨m', hs'', b', e'⟩
              rw [hr] at e e'
              injection e with _ _ e
              injection e' with e'
              rw [← e, ← redirectHeader_eq, hl] at hl'
              injection hl' with hl'
              exact ⟨hl'.symm, e'.symm⟩
            split
            · rename_i hp
              refine ⟨_, _, rfl, h.end_ (by rw [hr]; exact ⟨hc, rfl, .inl rfl, rfl⟩) ?_⟩
              intro code' place h1 h2
              obtain ⟨rfl, rfl⟩ := key code' place h1 h2
              left
              rw [onWire_data]
              exact hp
            · split
              · rename_i hv
                refine ⟨_, _, rfl, h.end_ (by rw [hr]; exact ⟨hc, rfl, .inr rfl, rfl⟩) ?_⟩
                intro code' place h1 h2
                obtain ⟨rfl, rfl⟩ := key code' place h1 h2
                right
                rw [onWire_url]
                rcases hv with hv | hv
                · left
                  rw [← h.visits.count]
                  exact hv
                · right
                  refine ⟨visited.keys, h.visits.nodup, ?_, fun u hu => (h.visits.keys u).1 hu⟩
                  have : visited.keys.length = visited.length := by simp [Dict.keys]
                  rw [this]
                  rcases h.visits.total with h' | h'
                  · omega
                  · exact h'.1
              · rename_i hv
                exact openUrl_ended first n _ _ _ (h.next hr hm hl hv) (by simp; omega)
        · rename_i hm
          refine ⟨_, _, rfl, h.end_ (by rw [hr]; exact ⟨hc, rfl, .inl rfl, rfl⟩) ?_⟩
          rintro code' place ⟨c, m, hs', b, e, hc', _⟩ _
          rw [hr] at e
          injection e with e
          exfalso
          apply hm
          simp only [List.mem_cons, List.not_mem_nil, or_false]
          rw [e]
          exact hc'

/-- Once the bound is enough, a larger one changes nothing. -/
theorem openUrl_mono : ∀ (n k : Nat) (visited : Dict String Nat) (done : List RawRequest) (req : RawRequest),
    (openUrl resolve server n visited done req).1 ≠ none →
    openUrl resolve server (n + k) visited done req = openUrl resolve server n visited done req
  | 0, k, visited, done, req, h => absurd rfl h
  | n + 1, k, visited, done, req, h => by
    have e : n + 1 + k = (n + k) + 1 := by omega
    rw [e]
    unfold openUrl at h ⊢
    simp only at h ⊢
    cases hr : server done req.onWire with
    | failed e => rfl
    | reply code msg hs body =>
      rw [hr] at h
      simp only at h ⊢
      split
      · rfl
      · rename_i hc
        rw [if_neg hc] at h
        split
        · rename_i hm
          rw [if_pos hm] at h
          cases hl : redirectHeader hs with
          | none => rfl
          | some l =>
            rw [hl] at h
            simp only at h ⊢
            split
            · rfl
            · rename_i hp
              rw [if_neg hp] at h
              split
              · rfl
              · rename_i hv
                rw [if_neg hv] at h
                exact openUrl_mono n k _ _ _ h
        · rfl

theorem openUrl_first (url : String) (data : Option Bytes) (headers : Dict String String) :
    ∃ u reqs, openUrl resolve server 38 [] [] ⟨url, data, headers⟩ = (some u, reqs) ∧ Ended resolve server ⟨url, data, headers⟩ u reqs :=
  openUrl_ended ⟨url, data, headers⟩ 38 [] [] _ (following_start _) (by simp)

end Pyogp
