import Verif.Proofs.Printing

namespace Pyogp
open Spec

/-! ## C102

What exceptions, hosts and capabilities look like as text, and when that is impossible. -/

/-- The text of an exception with a format of its own: either the attributes can be put together in one text, or `str` raises. -/
theorem exc_str (e : LibExc) (hu : ∀ u, e ≠ .resourceNotFound u) :
    (Mixable (excShows e) → e.str = .ok (excText e)) ∧ (¬ Mixable (excShows e) → e.str = .error .valueError) := by
  have mix1 : ∀ a b c d : Val, Mixable [a, b, c, d] ↔ Mixable [d, a, c, b] := by
    intro a b c d
    have : ∀ (P : Val → Prop), (∀ v ∈ [a, b, c, d], P v) ↔ ∀ v ∈ [d, a, c, b], P v := by
      intro P
      simp only [List.mem_cons, List.not_mem_nil, or_false, forall_eq_or_imp, forall_eq]
      constructor
      · rintro ⟨h1, h2, h3, h4⟩; exact ⟨h4, h1, h3, h2⟩
      · rintro ⟨h1, h2, h3, h4⟩; exact ⟨h2, h4, h3, h1⟩
    unfold Mixable
    rw [this, this]
  cases e with
  | resourceNotFound u => exact absurd rfl (hu u)
  | parseStartLoc e => exact ⟨fun _ => rfl, fun h => absurd (.inl (by simp [excShows])) h⟩
  | loginError e =>
    simpa [woven, LibExc.str, excText, excShows, lit] using
      strPercent_eq (ss := ["Agent login error: ", ""]) (args := [e]) (by decide +kernel) rfl (by decide +kernel)
  | httpError c m =>
    simpa [woven, LibExc.str, excText, excShows, lit] using
      strPercent_eq (ss := ["", " ", ""]) (args := [c, m]) (by decide +kernel) rfl (by decide +kernel)
  | resourceError u c m me =>
    have h := strPercent_eq (fmt := "Error using '%s' on resource '%s': %s (%s)") (ss := ["Error using '", "' on resource '", "': ", " (", ")"])
      (args := [me, u, m, c]) (by decide +kernel) rfl (by decide +kernel)
    simp only [LibExc.str, excText, excShows]
    rw [mix1]
    simpa [woven] using h
  | deserializerNotFound c =>
    simpa [woven, LibExc.str, excText, excShows] using
      strPercent_eq (ss := ["deserialization for '", "' not supported"]) (args := [c]) (by decide +kernel) rfl (by decide +kernel)
  | credentialDeserializerNotFound p =>
    simpa [woven, LibExc.str, excText, excShows] using
      strPercent_eq (ss := ["deserialization for payload '", "' not supported"]) (args := [p]) (by decide +kernel) rfl (by decide +kernel)
  | deserializationFailed p r =>
    simpa [woven, LibExc.str, excText, excShows] using
      strPercent_eq (ss := ["deserialization failed for '", "', reason: '", "'"]) (args := [p, r]) (by decide +kernel) rfl (by decide +kernel)
  | messageTemplateNotFound c =>
    simpa [woven, LibExc.str, excText, excShows] using
      strPercent_eq (ss := ["No message template found, context: '", "'"]) (args := [c]) (by decide +kernel) rfl (by decide +kernel)
  | messageTemplateParsing c =>
    simpa [woven, LibExc.str, excText, excShows] using
      strPercent_eq (ss := ["Error parsing message template, context: '", "'"]) (args := [c]) (by decide +kernel) rfl (by decide +kernel)
  | circuitNotFound h r =>
    simpa [woven, LibExc.str, excText, excShows] using
      strPercent_eq (ss := ["No circuit to '", "' found, reason: '", "'"]) (args := [h, r]) (by decide +kernel) rfl (by decide +kernel)
  | messageBuilding l r =>
    simpa [woven, LibExc.str, excText, excShows] using
      strPercent_eq (ss := ["Error serializing '", "' due to reason: '", "'"]) (args := [l, r]) (by decide +kernel) rfl (by decide +kernel)
  | messageSerialization l r =>
    simpa [woven, LibExc.str, excText, excShows] using
      strPercent_eq (ss := ["Error serializing '", "' due to reason: '", "'"]) (args := [l, r]) (by decide +kernel) rfl (by decide +kernel)
  | messageDeserialization l r =>
    simpa [woven, LibExc.str, excText, excShows] using
      strPercent_eq (ss := ["Error deserializing '", "' due to reason: '", "'"]) (args := [l, r]) (by decide +kernel) rfl (by decide +kernel)
  | dataUnpacking l r =>
    simpa [woven, LibExc.str, excText, excShows] using
      strPercent_eq (ss := ["Error serializing '", "' due to reason: '", "'"]) (args := [l, r]) (by decide +kernel) rfl (by decide +kernel)
  | regionSeedCap r =>
    simpa [woven, LibExc.str, excText, excShows] using
      strPercent_eq (ss := ["Region seed capability not found when ", "'"]) (args := [r]) (by decide +kernel) rfl (by decide +kernel)
  | regionMessage r =>
    simpa [woven, LibExc.str, excText, excShows] using
      strPercent_eq (ss := ["Agent has no udp connection enabled for: ", "'"]) (args := [r]) (by decide +kernel) rfl (by decide +kernel)
  | dataParsing e =>
    simpa [woven, LibExc.str, excText, excShows] using
      strPercent_eq (ss := ["Data parsing error: ", "'"]) (args := [e]) (by decide +kernel) rfl (by decide +kernel)
  | notImplemented e =>
    simpa [woven, LibExc.str, excText, excShows, lit] using
      strPercent_eq (ss := ["This method has to be implemented here: ", ""]) (args := [e]) (by decide +kernel) rfl (by decide +kernel)
  | deprecated t =>
    simpa [woven, LibExc.str, excText, excShows, lit] using
      strPercent_eq (ss := ["This thing is deprecated: ", ""]) (args := [t]) (by decide +kernel) rfl (by decide +kernel)

/-- **C102.** An exception whose attributes contain no `unicode` text, or nothing but ASCII, can be shown, and the text is the sentence of
its class with the attributes in their places. -/
theorem C102_text (e : LibExc) (h : Mixable (excShows e)) (hu : ∀ u, e = .resourceNotFound u → IsText u) : e.str = .ok (excText e) := by
  by_cases hr : ∃ u, e = .resourceNotFound u
  · obtain ⟨u, rfl⟩ := hr
    have ht := hu u rfl
    cases u with
    | bytes b => rfl
    | uni cs =>
      have ha : ∀ c ∈ cs, c.toNat < 128 := by
        rcases h with h | h
        · exact absurd trivial (h (.uni cs) (by simp [excShows]))
        · exact h (.uni cs) (by simp [excShows])
      simp only [LibExc.str, returned, excText, bytesOf]
      rw [if_pos (by rw [List.all_eq_true]; intro c hc; exact decide_eq_true (ha c hc))]
    | int i => exact absurd ht id
    | none => exact absurd ht id
    | type t => exact absurd ht id
  · exact (exc_str e (fun u he => hr ⟨u, he⟩)).1 h

/-- **C102, and otherwise not:** with a `unicode` attribute and something in any attribute that is not ASCII, showing the exception (in a log message, or
by the interpreter) itself raises a `UnicodeError`. -/
theorem C102_not_printable (e : LibExc) (h : ¬ Mixable (excShows e)) : e.str = .error .valueError := by
  by_cases hr : ∃ u, e = .resourceNotFound u
  · obtain ⟨u, rfl⟩ := hr
    cases u with
    | uni cs =>
      have ha : ¬ ∀ c ∈ cs, c.toNat < 128 := by
        intro ha
        refine h (.inr ?_)
        intro v hv
        simp only [excShows, List.mem_singleton] at hv
        subst hv; exact ha
      simp only [LibExc.str, returned]
      rw [if_neg]
      intro hx
      exact ha (fun c hc => of_decide_eq_true (List.all_eq_true.mp hx c hc))
    | bytes b => exact absurd (.inl (by simp [excShows, Unicode])) h
    | int i => exact absurd (.inl (by simp [excShows, Unicode])) h
    | none => exact absurd (.inl (by simp [excShows, Unicode])) h
    | type t => exact absurd (.inl (by simp [excShows, Unicode])) h
  · exact (exc_str e (fun u he => hr ⟨u, he⟩)).2 h

/-- **C102.** The text of a content type that is a type (`DeserializerNotFound(type(payload))`). -/
theorem C102_types :
    [TypeName.dict, .list, .tuple, .str, .unicode, .int, .long, .float, .bool, .noneType].map (fun t => (LibExc.deserializerNotFound (.type t)).str) =
      ["dict", "list", "tuple", "str", "unicode", "int", "long", "float", "bool", "NoneType"].map
        (fun n => .ok (("deserialization for '<type '" ++ n ++ "'>' not supported").toList.map (fun c => UInt8.ofNat c.toNat))) := by
  decide +kernel

/-- The one exception without a sentence shows its URL only, and cannot be shown if that is no text (`None`, say). -/
theorem C102_not_found (u : Val) (h : ¬ IsText u) : (LibExc.resourceNotFound u).str = .error .typeError := by
  cases u with
  | bytes b => exact absurd trivial h
  | uni cs => exact absurd trivial h
  | _ => rfl

/-- Hypotheses met: a server message that is not ASCII with a URL that came as `str` is fine, with one that came as `unicode` (out of LLSD) is not. -/
example :
    (LibExc.resourceError (.bytes (lit "http://a/")) (.int 500) (.bytes [0xc3, 0xa9]) (.bytes (lit "GET"))).str =
      .ok (lit "Error using 'GET' on resource 'http://a/': " ++ [0xc3, 0xa9] ++ lit " (500)") ∧
    (LibExc.resourceError (.uni ['h']) (.int 500) (.bytes [0xc3, 0xa9]) (.bytes (lit "GET"))).str = .error .valueError ∧
    (LibExc.resourceNotFound (.uni ['h', 'é'])).str = .error .valueError ∧ (LibExc.resourceNotFound .none).str = .error .typeError := by
  decide +kernel

/-- Three classes share one sentence: a failed *unpacking* says "serializing", and cannot be told from a failed serialization by its text. -/
theorem C102_same_sentence (x y : Val) :
    (LibExc.dataUnpacking x y).str = (LibExc.messageSerialization x y).str ∧ (LibExc.messageBuilding x y).str = (LibExc.messageSerialization x y).str ∧
    (Mixable [x, y] → ∃ t, (LibExc.dataUnpacking x y).str = .ok t ∧ lit "Error serializing '" <+: t) :=
  ⟨rfl, rfl, fun h => ⟨_, C102_text (.dataUnpacking x y) h (fun _ h => nomatch h), by
    simp only [excText, List.append_assoc]; exact List.prefix_append _ _⟩⟩

/-- **C102, hosts.** A host can be shown unless its address is a `unicode` text that is not ASCII (or mixed with bytes that are not). -/
theorem C102_host (ip port : Val) :
    (Mixable [ip, port] → hostRepr ip port = .ok (lit "Host: '" ++ bytesOf ip ++ lit ":" ++ bytesOf port ++ lit "'")) ∧
    (¬ Mixable [ip, port] → hostRepr ip port = .error .valueError) := by
  simpa [woven, hostRepr] using
    strPercent_eq (fmt := "Host: '%s:%s'") (ss := ["Host: '", ":", "'"]) (args := [ip, port]) (by decide +kernel) rfl (by decide +kernel)

/-- The hosts the library makes itself (the address of a datagram as the socket gives it: a `str` and a number; no address before the first datagram)
can always be shown, and so can the dispatcher. -/
theorem C102_socket_host (ip : Bytes) (port : Int) :
    hostRepr (.bytes ip) (.int port) = .ok (lit "Host: '" ++ ip ++ lit ":" ++ lit (toString port) ++ lit "'") ∧
    dispatcherRepr (.bytes ip) (.int port) = .ok (lit "UDPDispatcher to Host: '" ++ ip ++ lit ":" ++ lit (toString port) ++ lit "'") ∧
    dispatcherRepr .none .none = .ok (lit "UDPDispatcher to Host: 'None:None'") := by
  have h1 : hostRepr (.bytes ip) (.int port) = .ok (lit "Host: '" ++ ip ++ lit ":" ++ lit (toString port) ++ lit "'") :=
    (C102_host (.bytes ip) (.int port)).1 (.inl (by simp [Unicode]))
  refine ⟨h1, ?_, by decide +kernel⟩
  unfold dispatcherRepr
  rw [h1]
  have h2 := (strPercent_eq (fmt := "UDPDispatcher to %s") (ss := ["UDPDispatcher to ", ""])
    (args := [.bytes (lit "Host: '" ++ ip ++ lit ":" ++ lit (toString port) ++ lit "'")]) (by decide +kernel) rfl (by decide +kernel)).1
    (.inl (by simp [Unicode]))
  simp only [bind, Except.bind]
  rw [h2]
  have e : lit "UDPDispatcher to Host: '" = lit "UDPDispatcher to " ++ lit "Host: '" := by decide +kernel
  rw [e]
  simp [woven, bytesOf, lit]

/-- The UDP client itself can never be shown. -/
theorem C102_client (ip port : Val) : netClientRepr ip port = .error .typeError := rfl

/-- **C102, capabilities.** -/
theorem C102_capabilities (name url : Val) :
    (Mixable [name, url] → capRepr name url = .ok (lit "<Capability '" ++ bytesOf name ++ lit "' for " ++ bytesOf url ++ lit ">")) ∧
    (¬ Mixable [name, url] → capRepr name url = .error .valueError) ∧
    (Mixable [url] → seedCapRepr url = .ok (lit "<SeedCapability for " ++ bytesOf url ++ lit ">")) ∧
    (¬ Mixable [url] → seedCapRepr url = .error .valueError) := by
  have h1 := strPercent_eq (fmt := "<Capability '%s' for %s>") (ss := ["<Capability '", "' for ", ">"]) (args := [name, url])
    (by decide +kernel) rfl (by decide +kernel)
  have h2 := strPercent_eq (fmt := "<SeedCapability for %s>") (ss := ["<SeedCapability for ", ">"]) (args := [url])
    (by decide +kernel) rfl (by decide +kernel)
  refine ⟨?_, h1.2, ?_, h2.2⟩
  · simpa [woven, capRepr] using h1.1
  · simpa [woven, seedCapRepr] using h2.1

/-! ### Which `except` catches what -/

/-- Going up at most three classes. -/
def ExcClass.caught3 (c h : ExcClass) : Bool :=
  c = h || c.base = some h || (c.base.bind ExcClass.base) = some h

theorem caughtBy_iff (c h : ExcClass) : c.CaughtBy h ↔ c.caught3 h = true := by
  constructor
  · intro hc
    induction hc with
    | self c => simp [ExcClass.caught3]
    | up hb _ ih => rename_i c b h _; cases c <;> cases hb <;> revert ih <;> cases h <;> decide
  · intro hc
    simp only [ExcClass.caught3, Bool.or_eq_true, decide_eq_true_eq] at hc
    rcases hc with (rfl | hc) | hc
    · exact .self _
    · exact .up hc (.self _)
    · cases hb : c.base with
      | none => rw [hb] at hc; cases hc
      | some b => rw [hb] at hc; exact .up hb (.up hc (.self _))

/-- **C102, catching.** `except Error` catches every exception class of the library, and the exceptions of the message system, of the network and of
deserialization are caught by their group and by no other. -/
theorem C102_catching (c : ExcClass) :
    c.CaughtBy .error ∧
    (c.CaughtBy .messageSystemError ↔ c ∈ [.messageSystemError, .messageTemplateNotFound, .messageTemplateParsingError, .circuitNotFound,
      .messageBuildingError, .messageSerializationError, .messageDeserializationError, .dataUnpackingError]) ∧
    (c.CaughtBy .networkError ↔ c ∈ [.networkError, .httpError, .resourceNotFound, .resourceError]) ∧
    (c.CaughtBy .deserializationError ↔ c ∈ [.deserializationError, .deserializerNotFound, .credentialDeserializerNotFound, .deserializationFailed]) ∧
    (c.CaughtBy .serializationError ↔ c = .serializationError) ∧
    (c.CaughtBy .regionDomainError ↔ c ∈ [.regionDomainError, .regionSeedCapNotAvailable, .regionCapNotAvailable, .regionMessageError]) := by
  simp only [caughtBy_iff]
  cases c <;> decide

/-- What the names suggest is not so: a failure to serialize or deserialize a *message* is not caught as `SerializationError` or
`DeserializationError`, nor is an unpacking error as a `MessageDeserializationError`. -/
theorem C102_not_caught :
    ¬ ExcClass.messageSerializationError.CaughtBy .serializationError ∧ ¬ ExcClass.messageDeserializationError.CaughtBy .deserializationError ∧
    ¬ ExcClass.dataUnpackingError.CaughtBy .messageDeserializationError := by
  simp only [caughtBy_iff]
  decide

end Pyogp
