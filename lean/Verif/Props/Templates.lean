import Verif.Proofs.Embedded
import Verif.Props.Deserialize

/-! # C47, C48: template files and template dictionaries -/

namespace Pyogp
open Spec

/-! ## C47 -/

/-- **C47** (Python 2.6). A template file in the layout of `message_template.msg` gives exactly the declared templates, in order. -/
theorem C47_layout_read (file : List (List Char)) (ts : List Template) (h : Layout file ts) :
    ∃ raws, parseTemplateFile .v26 file = .ok raws ∧ raws.mapM RawTemplate.known = some ts :=
  layout_file .v26 h (.inl rfl)

/-- **C47** (Python 2.7). The same if all numbers fit a byte, and `struct.error` otherwise. -/
theorem C47_layout_read_py27 (file : List (List Char)) (ts : List Template) (h : Layout file ts) :
    ((∀ t ∈ ts, t.msgNum < 256) → ∃ raws, parseTemplateFile .v27 file = .ok raws ∧ raws.mapM RawTemplate.known = some ts) ∧
    ((∃ t ∈ ts, 256 ≤ t.msgNum) → parseTemplateFile .v27 file = .error .structError) :=
  ⟨fun hn => layout_file .v27 h (.inr hn), layout_file_refused h⟩

/-! ### A file of the layout -/

def sampleFile : List (List Char) :=
  [chars! "// sample", chars! "version 2.0", chars! "", chars! "{", chars! "\tChat Low 0xFFFF NotTrusted Zerocoded // big", chars! "\t{",
   chars! "\t\tAgent\tMultiple 3", chars! "\t\t{ ID LLUUID }", chars! "  // note", chars! "\t\t{\tText Variable 2\t} // text", chars! "\t}",
   chars! "}", chars! "{", chars! "\tPing Fixed 0xFFFFFFF7 Trusted Unencoded UDPDeprecated", chars! "}"]

def sampleTemplates : List Template :=
  [⟨"Chat", .low, 65535, [], some .notTrusted, some .zerocoded, some .notDeprecated,
     [⟨"Agent", .multiple, 3, [⟨"ID", .uuid, 16⟩, ⟨"Text", .variable, 2⟩]⟩]⟩,
   ⟨"Ping", .fixed, 247, [], some .trusted, some .unencoded, some .udpDeprecated, []⟩]

theorem margin_of {s : List Char} (h : s.all reSpace = true) : Margin s :=
  fun c hc => (reSpace_iff c).mp (List.all_eq_true.mp h c hc)
theorem gap_of {s : List Char} (hn : s ≠ []) (h : s.all reSpace = true) : Gap s := ⟨hn, margin_of h⟩
theorem word_of {w : List Char} (hn : w ≠ []) (h : w.all reWord = true) : Word w := ⟨hn, fun c hc => (reWord_iff c).mp (List.all_eq_true.mp h c hc)⟩

theorem noWord_of_head {c : Char} {r : List Char} {s : List Char} (hs : Margin s) (hc : ¬ SpaceChar c) (hw : ¬ WordChar c) : NoWord (s ++ c :: r) := by
  intro m r' hm he d t hr
  subst hr
  intro hd
  -- the margin `m` cannot reach beyond `c`, so `d` is a space or `c`
  have h1 : (m ++ d :: t).dropWhile reSpace = d :: t := margin_drop hm (by
    rintro x u e; cases e; intro hsp
    have := not_space_of_word hd
    rw [(reSpace_iff _).mpr hsp] at this; cases this)
  have h2 : (s ++ c :: r).dropWhile reSpace = c :: r := margin_drop hs (by rintro x u e; cases e; exact hc)
  rw [he, h1] at h2
  cases h2
  exact hw hd

theorem sample_layout : Layout sampleFile sampleTemplates := by
  refine .idle _ _ _ (.inl (.inr ⟨[], chars! " sample", margin_of rfl, rfl⟩)) ?_
  refine .idle _ _ _ (.inr (.inr ⟨' ', [], ['2', '.', '0'], [], by unfold NoBrace; decide, margin_of rfl,
    ⟨[], _, .inl rfl, rfl, .inl ⟨_, [], .inr ⟨['2'], ['0'], by unfold Digits; decide, by unfold Digits; decide, .inl (by simp), rfl⟩, .inl rfl, rfl⟩⟩, (by rintro c r h; cases h), rfl⟩)) ?_
  refine .idle _ _ _ (.inl (.inl (margin_of rfl))) ?_
  refine .message (chars! "{") [] (chars! "\tChat Low 0xFFFF NotTrusted Zerocoded // big")
    [chars! "\t{", chars! "\t\tAgent\tMultiple 3", chars! "\t\t{ ID LLUUID }", chars! "  // note", chars! "\t\t{\tText Variable 2\t} // text", chars! "\t}"]
    (chars! "}") [chars! "{", chars! "\tPing Fixed 0xFFFFFFF7 Trusted Unencoded UDPDeprecated", chars! "}"] _ _
    ⟨[], [], margin_of rfl, margin_of rfl, rfl⟩ (by simp) ?_ ?_ ⟨[], [], margin_of rfl, margin_of rfl, rfl⟩ ?_
  · refine ⟨['\t'], chars! "Chat", [' '], [' '], chars! "0xFFFF", 65535, [' '], .notTrusted, [' '], .zerocoded, chars! " // big",
      gap_of (by simp) rfl, word_of (by simp) rfl, gap_of (by simp) rfl, gap_of (by simp) rfl,
      .hex 'x' ['F', 'F', 'F', 'F'] (.inl rfl) (by simp) (by unfold HexDigit; decide), gap_of (by simp) rfl, gap_of (by simp) rfl, rfl,
      by unfold NoBrace; decide, rfl, rfl, rfl, rfl, rfl, .inl ⟨?_, rfl⟩⟩
    exact noWord_of_head (s := [' ']) (c := '/') (margin_of rfl) (by unfold SpaceChar; decide) (by unfold WordChar; decide)
  · refine .block (chars! "\t{") [] (chars! "\t\tAgent\tMultiple 3")
      [chars! "\t\t{ ID LLUUID }", chars! "  // note", chars! "\t\t{\tText Variable 2\t} // text"] (chars! "\t}") [] _ _
      ⟨['\t'], [], margin_of rfl, margin_of rfl, rfl⟩ (by simp) ?_ ?_ ⟨['\t'], [], margin_of rfl, margin_of rfl, rfl⟩ .nil
    · exact ⟨['\t', '\t'], chars! "Agent", ['\t'], [], gap_of (by simp) rfl, word_of (by simp) rfl, gap_of (by simp) rfl, rfl,
        by unfold NoBrace; decide, .inr (.inr ⟨[' '], ['3'], gap_of (by simp) rfl, ⟨by simp, by decide, rfl⟩, rfl, (by rintro c r h; cases h), rfl⟩)⟩
    · refine .var _ _ _ _ ?_ (.filler _ _ _ (.inr ⟨[' ', ' '], chars! " note", margin_of rfl, rfl⟩) (.var _ _ _ _ ?_ .nil))
      · exact ⟨['\t', '\t'], [' '], chars! "ID", [' '], [' ', '}'], margin_of rfl, margin_of rfl, word_of (by simp) rfl, gap_of (by simp) rfl, rfl,
          by decide, .inl ⟨"LLUUID", 16, rfl, rfl, (by rintro c r h; cases h; unfold WordChar; decide), rfl⟩⟩
      · exact ⟨['\t', '\t'], ['\t'], chars! "Text", [' '], chars! "\t} // text", margin_of rfl, margin_of rfl, word_of (by simp) rfl,
          gap_of (by simp) rfl, rfl, by decide, .inr ⟨"Variable", [' '], ['2'], rfl, gap_of (by simp) rfl, ⟨by simp, by decide, rfl⟩, by decide,
            (by rintro c r h; cases h; decide), rfl⟩⟩
  · refine .message (chars! "{") [] (chars! "\tPing Fixed 0xFFFFFFF7 Trusted Unencoded UDPDeprecated") [] (chars! "}") [] _ _
      ⟨[], [], margin_of rfl, margin_of rfl, rfl⟩ (by simp) ?_ .nil ⟨[], [], margin_of rfl, margin_of rfl, rfl⟩ .nil
    exact ⟨['\t'], chars! "Ping", [' '], [' '], chars! "0xFFFFFFF7", 0xFFFFFFF7, [' '], .trusted, [' '], .unencoded, chars! " UDPDeprecated",
      gap_of (by simp) rfl, word_of (by simp) rfl, gap_of (by simp) rfl, gap_of (by simp) rfl,
      .hex 'x' (chars! "FFFFFFF7") (.inl rfl) (by simp) (by unfold HexDigit; decide), gap_of (by simp) rfl, gap_of (by simp) rfl, rfl,
      by unfold NoBrace; decide, rfl, ⟨by decide, by decide⟩, rfl, rfl, rfl,
      .inr ⟨[' '], .udpDeprecated, [], gap_of (by simp) rfl, rfl, (by rintro c r h; cases h), rfl⟩⟩

example : ∃ raws, parseTemplateFile .v26 sampleFile = .ok raws ∧ raws.mapM RawTemplate.known = some sampleTemplates :=
  C47_layout_read _ _ sample_layout

/-! ### What the parser does with other files -/

/-- **C47, Python 2.7,** the sample file: a Low message numbered above 255 cannot be read. -/
theorem C47_py27_sample : parseTemplateFile .v27 sampleFile = .error .structError := by kernel_rfl

/-- A version that is no number raises `ValueError`; what comes after it is not read. -/
theorem C47_version_not_a_number (v : PyVersion) (fill : List (List Char)) (hf : ∀ l ∈ fill, Filler l) (c : Char) (g w r : List Char)
    (rest : List (List Char)) (hg : Margin g) (hw : w ≠ []) (hws : ∀ x ∈ w, ¬ SpaceChar x) (hn : ¬ VersionNumber w)
    (hr : NotNext (fun c => ¬ SpaceChar c) r) :
    parseTemplateFile v (fill ++ ("version".toList ++ c :: (g ++ (w ++ r))) :: rest) = .error .valueError := by
  have hm : matchVersion ("version".toList ++ c :: (g ++ (w ++ r))) = some (.error .valueError) := matchVersion_bad c g w r hg hw hws hn hr
  have hc : isComment ("version".toList ++ c :: (g ++ (w ++ r))) = false := rfl
  generalize "version".toList ++ c :: (g ++ (w ++ r)) = line at hm hc
  have h1 : parseLine v ⟨none, 0, []⟩ line = .error .valueError := by
    simp only [parseLine, hc, readVersion, hm, bind, Except.bind]
    rfl
  have key : ∀ fill : List (List Char), (∀ l ∈ fill, Filler l) → parseLines v ⟨none, 0, []⟩ (fill ++ line :: rest) = .error .valueError := by
    intro fill
    induction fill with
    | nil => intro _; simp only [List.nil_append, parseLines, h1, bind, Except.bind]
    | cons l fill ih =>
      intro hf
      simp only [List.cons_append, parseLines, parseLine_filler v _ (hf l (by simp)), bind, Except.bind]
      exact ih (fun l hl => hf l (by simp [hl]))
  simp only [parseTemplateFile, key fill hf, bind, Except.bind]

example : parseTemplateFile .v26 [chars! "// sample", chars! "version two", chars! "{"] = .error .valueError := by kernel_rfl

/-- Versions that are numbers, and some that are not. -/
example : VersionNumber (chars! "2.0") ∧ VersionNumber (chars! "-.5e+10") ∧ VersionNumber (chars! "+Infinity") ∧
    ¬ VersionNumber (chars! "2.0.1") ∧ ¬ VersionNumber (chars! "2e") ∧ ¬ VersionNumber (chars! ".") ∧ ¬ VersionNumber (chars! "0x2") := by
  refine ⟨?_, ?_, ?_, ?_, ?_, ?_, ?_⟩ <;> rw [← isFloatWord_iff] <;> decide +kernel

/-- A message number that is not written as a number raises `ValueError`. -/
theorem C47_number_not_a_number (v : PyVersion) (ver : Option (List Char)) (ts : List RawTemplate) (m name s₁ freq s₂ num s₃ trust s₄ enc rest : List Char)
    (hm : Gap m) (hname : Word name) (hs₁ : Gap s₁) (hfreq : Word freq) (hs₂ : Gap s₂) (hnum : Word num) (hs₃ : Gap s₃) (htrust : Word trust)
    (hs₄ : Gap s₄) (henc : Word enc) (hrest : NotNext WordChar rest)
    (hb : NoBrace (m ++ (name ++ (s₁ ++ (freq ++ (s₂ ++ (num ++ (s₃ ++ (trust ++ (s₄ ++ (enc ++ rest))))))))))) (hn : ∀ n, ¬ Numeral num n) :
    parseLine v ⟨ver, 1, ts⟩ (m ++ (name ++ (s₁ ++ (freq ++ (s₂ ++ (num ++ (s₃ ++ (trust ++ (s₄ ++ (enc ++ rest)))))))))) = .error .valueError := by
  have hmatch := matchHeader_found (margin_nonword hm.2) hname hs₁ hfreq hs₂ hnum hs₃ htrust hs₄ henc hrest
  have hcomment : isComment (m ++ (name ++ (s₁ ++ (freq ++ (s₂ ++ (num ++ (s₃ ++ (trust ++ (s₄ ++ (enc ++ rest)))))))))) = false := by
    cases name with
    | nil => exact absurd rfl hname.1
    | cons a name =>
      have ha := hname.2 a List.mem_cons_self
      refine not_comment hm.2 (fun h => ?_) (fun h => ?_)
      · have := not_space_of_word ha
        rw [(reSpace_iff a).mpr h] at this; cases this
      · rw [h] at ha; unfold WordChar at ha; revert ha; decide
  have hver := not_version_gap (r := name ++ (s₁ ++ (freq ++ (s₂ ++ (num ++ (s₃ ++ (trust ++ (s₄ ++ (enc ++ rest))))))))) hm
  generalize (m ++ (name ++ (s₁ ++ (freq ++ (s₂ ++ (num ++ (s₃ ++ (trust ++ (s₄ ++ (enc ++ rest)))))))))) = l at *
  rw [parseLine_plain v _ _ hcomment (matchVersion_none hver)]
  have e1 : openBrace l ⟨ver, 1, ts⟩ = ⟨ver, 1, ts⟩ := by simp [openBrace, hasOpen_false hb.1]
  have e2 : stepMessage v l ⟨ver, 1, ts⟩ = .error .valueError := by
    simp only [stepMessage, hmatch, if_true, startNewTemplate, atoi0_not_numeral hn]
    rfl
  rw [e1, e2]
  rfl

/-- Numbers, and words that are none. -/
example : Numeral (chars! "0xFb") 251 ∧ Numeral (chars! "017") 15 ∧ Numeral (chars! "0O17") 15 ∧ Numeral (chars! "0b101") 5 ∧ Numeral (chars! "120") 120 ∧
    (∀ n, ¬ Numeral (chars! "08") n) ∧ (∀ n, ¬ Numeral (chars! "0x") n) ∧ (∀ n, ¬ Numeral (chars! "1_000") n) := by
  have no : ∀ w, atoi0 w = .error .valueError → ∀ n, ¬ Numeral w n := by
    intro w h n hn
    rw [atoi0_numeral hn] at h
    cases h
  exact ⟨(atoi0_iff _ _).mp rfl, (atoi0_iff _ _).mp rfl, (atoi0_iff _ _).mp rfl, (atoi0_iff _ _).mp rfl, (atoi0_iff _ _).mp rfl,
    no _ rfl, no _ rfl, no _ rfl⟩

example : parseLine .v26 ⟨none, 1, []⟩ (chars! "\tChat Low 08 Trusted Unencoded") = .error .valueError := by kernel_rfl

/-- A variable of size 0 raises `NameError` instead of the intended error. -/
theorem C47_size_zero (v : PyVersion) (ver : Option (List Char)) (ts : List RawTemplate) :
    parseLine v ⟨ver, 2, ts⟩ (chars! "\t{ Text Variable 0 }") = .error .nameError := by
  cases ver <;> kernel_rfl

/-- An unknown frequency raises `UnboundLocalError`. -/
theorem C47_unknown_frequency (v : PyVersion) (ver : Option (List Char)) (ts : List RawTemplate) :
    parseLine v ⟨ver, 1, ts⟩ (chars! "\tChat Lwo 7 Trusted Unencoded") = .error .unboundLocalError := by
  cases ver <;> kernel_rfl

/-- An unknown type is accepted, without type and size. -/
theorem C47_unknown_type (v : PyVersion) (ver : Option (List Char)) (t : RawTemplate) (b : RawBlock) (bs : List RawBlock) (ts : List RawTemplate) :
    parseLine v ⟨ver, 2, { t with blocks := b :: bs } :: ts⟩ (chars! "\t{ Text Strnig }") =
      .ok ⟨ver, 2, { t with blocks := { b with vars := ⟨"Text", none, none⟩ :: b.vars } :: bs } :: ts⟩ := by
  cases ver <;> kernel_rfl

/-- Variables of a message without block go to the last block of an earlier message. -/
theorem C47_blockless_variable :
    parseTemplateFile .v26 [chars! "{", chars! " A Low 1 Trusted Unencoded", chars! "{", chars! " B Single", chars! "}", chars! "}",
      chars! "{", chars! " C Low 2 Trusted Unencoded", chars! "{", chars! " { X U8 }", chars! "}", chars! "}"] =
    .ok [⟨"A", .low, 1, [255, 255, 1], some .trusted, some .unencoded, some .notDeprecated, [⟨"B", .single, 0, [⟨"X", some .u8, some 1⟩]⟩]⟩,
         ⟨"C", .low, 2, [255, 255, 2], some .trusted, some .unencoded, some .notDeprecated, []⟩] := by
  kernel_rfl

/-! ## C48 -/

/-- **C48.** For every template list without duplicate names or (frequency, number) pairs and with numbers in their classes, the dictionary
finds exactly the listed templates, by name and by pair, with the id bytes of their class. -/
theorem C48_lookup (rt : Runtime) (ts : List Template) (hn : (ts.map (·.name)).Nodup) (hp : (ts.map (fun t => (t.freq, t.msgNum))).Nodup)
    (hc : ∀ t ∈ ts, InClass t.freq t.msgNum) :
    ∃ d, TemplateDict.build rt ts = .ok d ∧
      (∀ t ∈ ts, d.getTemplate t.name = some { t with msgNumHex := numPrefix t.freq t.msgNum } ∧
        d.getTemplateByPair t.freq t.msgNum = some { t with msgNumHex := numPrefix t.freq t.msgNum }) ∧
      (∀ n, n ∉ ts.map (·.name) → d.getTemplate n = none) ∧
      (∀ f k, (f, k) ∉ ts.map (fun t => (t.freq, t.msgNum)) → d.getTemplateByPair f k = none) :=
  build_lookup rt ts hn hp hc

example : (sampleTemplates.map (·.name)).Nodup ∧ (sampleTemplates.map (fun t => (t.freq, t.msgNum))).Nodup ∧
    ¬ (∀ t ∈ sampleTemplates, InClass t.freq t.msgNum) ∧ ∀ t ∈ sampleTemplates.tail, InClass t.freq t.msgNum := by decide +kernel

theorem templateDictOfFile_eq {rt : Runtime} {lines : List (List Char)} {raws : List RawTemplate} {ts : List Template}
    (h1 : parseTemplateFile rt.ver lines = .ok raws) (h2 : raws.mapM RawTemplate.known = some ts) :
    templateDictOfFile rt lines = TemplateDict.build rt ts := by
  unfold templateDictOfFile
  rw [h1]
  simp only [bind, Except.bind, h2]

theorem Embedded.dict_eq (rt : Runtime) (hv : rt.ver = .v26) : templateDictOfFile rt Embedded.file = TemplateDict.build rt Embedded.all_templates :=
  templateDictOfFile_eq (by rw [hv]; exact Embedded.parse_v26) Embedded.known

/-- **C48, embedded template** (Python 2.6). `message_template.msg` parses to 475 templates without duplicate names or pairs; its dictionary
finds each of them, well-formed, by name and by pair, and nothing else. -/
theorem C48_embedded (rt : Runtime) (hv : rt.ver = .v26) :
    ∃ (raws : List RawTemplate) (ts : List Template) (d : TemplateDict), parseTemplateFile rt.ver Embedded.file = .ok raws ∧
      raws.mapM RawTemplate.known = some ts ∧ templateDictOfFile rt Embedded.file = .ok d ∧
      ts.length = 475 ∧ (ts.map (·.name)).Nodup ∧ (ts.map (fun t => (t.freq, t.msgNum))).Nodup ∧
      (∀ t ∈ ts, WFTemplate { t with msgNumHex := numPrefix t.freq t.msgNum } ∧
        d.getTemplate t.name = some { t with msgNumHex := numPrefix t.freq t.msgNum } ∧
        d.getTemplateByPair t.freq t.msgNum = some { t with msgNumHex := numPrefix t.freq t.msgNum }) ∧
      (∀ n, n ∉ ts.map (·.name) → d.getTemplate n = none) ∧
      (∀ f k, (f, k) ∉ ts.map (fun t => (t.freq, t.msgNum)) → d.getTemplateByPair f k = none) := by
  obtain ⟨d, h1, h2, h3, h4⟩ := build_lookup rt _ Embedded.names_nodup Embedded.pairs_nodup Embedded.all_inClass
  refine ⟨Embedded.all_raws, Embedded.all_templates, d, by rw [hv]; exact Embedded.parse_v26, Embedded.known, ?_, by kernel_rfl,
    Embedded.names_nodup, Embedded.pairs_nodup, ?_, h3, h4⟩
  · exact (Embedded.dict_eq rt hv).trans h1
  · intro t ht
    exact ⟨checked_wf (Embedded.all_checked t ht), h2 t ht⟩

/-- **C48, Python 2.7:** the embedded template does not load (`FindAgent` is the first Low message above 255). -/
theorem C48_embedded_py27 (rt : Runtime) (hv : rt.ver = .v27) : templateDictOfFile rt Embedded.file = .error .structError := by
  unfold templateDictOfFile
  rw [hv, Embedded.parse_v27]
  rfl

/-! ## The default configuration -/

/-- A dictionary built from the embedded template file. -/
def Embedded.Dictionary (d : TemplateDict) : Prop := ∃ rt : Runtime, rt.ver = .v26 ∧ templateDictOfFile rt Embedded.file = .ok d

theorem Embedded.dictionary_pair {d : TemplateDict} (h : Embedded.Dictionary d) {f : Frequency} {n : Nat} {t : Template}
    (ht : d.getTemplateByPair f n = some t) : ∃ t₀ ∈ Embedded.all_templates, t = identified t₀ ∧ f = t₀.freq ∧ n = t₀.msgNum := by
  obtain ⟨rt, hv, hd⟩ := h
  obtain ⟨d', h1, h2, h3, h4⟩ := build_lookup rt _ Embedded.names_nodup Embedded.pairs_nodup Embedded.all_inClass
  have : d = d' := by
    rw [Embedded.dict_eq rt hv, h1] at hd
    cases hd; rfl
  subst this
  by_cases hm : (f, n) ∈ Embedded.all_templates.map (fun t => (t.freq, t.msgNum))
  · obtain ⟨t₀, hm₀, he⟩ := List.mem_map.mp hm
    cases he
    refine ⟨t₀, hm₀, ?_, rfl, rfl⟩
    have := (h2 t₀ hm₀).2
    rw [this] at ht
    cases ht; rfl
  · rw [h4 f n hm] at ht; cases ht

theorem Embedded.dictionary_lookup {d : TemplateDict} (h : Embedded.Dictionary d) {t : Template} (ht : t ∈ Embedded.all_templates) :
    d.getTemplate t.name = some (identified t) ∧ d.getTemplateByPair t.freq t.msgNum = some (identified t) := by
  obtain ⟨rt, hv, hd⟩ := h
  obtain ⟨d', h1, h2, h3, h4⟩ := build_lookup rt _ Embedded.names_nodup Embedded.pairs_nodup Embedded.all_inClass
  have : d = d' := by
    rw [Embedded.dict_eq rt hv, h1] at hd
    cases hd; rfl
  subst this
  exact h2 t ht

/-- **The default configuration is `Configured`:** C16–C19 and C58 apply to it. -/
theorem default_configured (env : DeserEnv) (hd : Embedded.Dictionary env.dict) (hx : env.xml = Embedded.messageXml)
    (hh : ∃ names, env.handled? = some names) : Configured env := by
  refine ⟨hh, ?_, ?_⟩
  · intro f n t h
    obtain ⟨t₀, hm, rfl, _, _⟩ := Embedded.dictionary_pair hd h
    rw [hx]
    exact Embedded.flavors t₀ hm
  · intro f n t h
    obtain ⟨t₀, hm, rfl, _, _⟩ := Embedded.dictionary_pair hd h
    exact (checked_wf (Embedded.all_checked t₀ hm)).vars

/-- **The default configuration is `Connected`** for every embedded message that `message.xml` leaves on UDP: C12–C15 apply to it. -/
theorem default_connected (senv : SerEnv) (renv : DeserEnv) (hr : renv.rt = senv.rt) (hs : Embedded.Dictionary senv.dict)
    (hd : Embedded.Dictionary renv.dict) (hsx : senv.xml = Embedded.messageXml) (hx : renv.xml = Embedded.messageXml)
    (t : Template) (ht : t ∈ Embedded.all_templates) (hu : Embedded.messageXml.get? t.name = none ∨ Embedded.messageXml.get? t.name = some (some "template"))
    (hh : ∃ names, renv.handled? = some names ∧ (t.name ∈ names ∨ renv.deferred = false)) :
    Connected senv renv (identified t) ∧ WFTemplate (identified t) := by
  have hval : validateUdpMsg Embedded.messageXml t.name = .ok true := by
    unfold validateUdpMsg
    rcases hu with h | h <;> rw [h]
    rfl
  exact ⟨⟨hr, (Embedded.dictionary_lookup hs ht).1, (Embedded.dictionary_lookup hd ht).2, by rw [hsx]; exact hval, by rw [hx]; exact hval, hh⟩,
    checked_wf (Embedded.all_checked t ht)⟩

/-- **C12 for the default configuration** (Python 2.6): every message that fills a template of the embedded file which `message.xml` leaves on
UDP arrives with its content. -/
theorem C12_default (senv : SerEnv) (renv : DeserEnv) (st : DeserState) (hr : renv.rt = senv.rt) (hs : Embedded.Dictionary senv.dict)
    (hd : Embedded.Dictionary renv.dict) (hsx : senv.xml = Embedded.messageXml) (hx : renv.xml = Embedded.messageXml)
    (t : Template) (ht : t ∈ Embedded.all_templates) (hu : Embedded.messageXml.get? t.name = none ∨ Embedded.messageXml.get? t.name = some (some "template"))
    (hh : ∃ names, renv.handled? = some names ∧ (t.name ∈ names ∨ renv.deferred = false))
    (m : Message) (hm : Fills senv.rt (identified t) m) (hf : m.sendFlags < 256)
    (hz : m.sendFlags &&& 0x80 = 0) (ha : m.sendFlags &&& 0x10 = 0) (hp : m.packetId < 2 ^ 31) :
    ∃ dg m', serialize senv m = .ok (some dg) ∧ (deserialize renv st dg).1 = .ok (some m') ∧
      SameContent senv.rt (identified t) m m' ∧ m'.sendFlags = m.sendFlags ∧ m'.packetId = m.packetId ∧
      m'.reliable = decide (m.sendFlags &&& 0x40 ≠ 0) ∧ m'.acks = [] := by
  obtain ⟨h1, h2⟩ := default_connected senv renv hr hs hd hsx hx t ht hu hh
  exact C12_roundtrip senv renv st _ m h1 h2 hm hf hz ha hp

/-- **C16 for the default configuration.** -/
theorem C16_default (env : DeserEnv) (hd : Embedded.Dictionary env.dict) (hx : env.xml = Embedded.messageXml)
    (hh : ∃ names, env.handled? = some names) (st : DeserState) (dg : Bytes) :
    (∃ r, (deserialize env st dg).1 = .ok r) ∨ (deserialize env st dg).1 = .error .messageDeserialization ∨
      (deserialize env st dg).1 = .error .indexError ∨ (deserialize env st dg).1 = .error .structError :=
  C16_outcomes env (default_configured env hd hx hh) st dg

/-- Such dictionaries exist. -/
theorem Embedded.dictionary_exists (rt : Runtime) (hv : rt.ver = .v26) : ∃ d, Embedded.Dictionary d ∧ templateDictOfFile rt Embedded.file = .ok d := by
  obtain ⟨_, _, d, _, _, h, _⟩ := C48_embedded rt hv
  exact ⟨d, ⟨rt, hv, h⟩, h⟩

end Pyogp
