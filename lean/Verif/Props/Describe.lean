import Verif.Proofs.Describe
import Verif.Props.Templates

/-! # C86: describing templates -/

namespace Pyogp
open Spec

/-- **C86** (listing). The listing of a template file shows every declared message, in order, with its block and variables. -/
theorem C86_listing (v : PyVersion) (file : List (List Char)) (ts : List Template) (h : Layout file ts) (hv : v = .v26 ∨ ∀ t ∈ ts, t.msgNum < 256) :
    ∃ raws tis ls, parseTemplateFile v file = .ok raws ∧ printPacketList raws = .ok ls ∧ Listing ls tis ∧ tis.map (·.1) = ts ∧
      ∀ p ∈ tis, ParserId p.1.freq p.1.msgNum p.2 := by
  obtain ⟨raws, h1, h2⟩ := layout_file v h hv
  have hc := layout_complete h
  obtain ⟨ls, h3, h4⟩ := printList_known raws ts h2 (fun t ht => ⟨(hc t ht).1, (hc t ht).2.1, (hc t ht).2.2.1⟩)
  have hi := parseFile_ids h1
  refine ⟨raws, _, ls, h1, h3, h4, ?_, ?_⟩
  · clear h1 h3 h4 hi hc h hv
    induction raws generalizing ts with
    | nil => cases h2; rfl
    | cons x raws ih =>
      simp only [List.mapM_cons] at h2
      cases hx : x.known with
      | none => rw [hx] at h2; cases h2
      | some t =>
        rw [hx] at h2
        cases hr : raws.mapM RawTemplate.known with
        | none => rw [hr] at h2; cases h2
        | some us => rw [hr] at h2; cases h2; simp only [List.map_cons, List.zip_cons_cons, ih us hr]
  · clear h1 h3 h4 hc h hv
    induction raws generalizing ts with
    | nil => cases h2; intro p hp; cases hp
    | cons x raws ih =>
      simp only [List.mapM_cons] at h2
      cases hx : x.known with
      | none => rw [hx] at h2; cases h2
      | some t =>
        rw [hx] at h2
        cases hr : raws.mapM RawTemplate.known with
        | none => rw [hr] at h2; cases h2
        | some us =>
          rw [hr] at h2; cases h2
          intro p hp
          simp only [List.map_cons, List.zip_cons_cons, List.mem_cons] at hp
          rcases hp with rfl | hp
          · have := hi x List.mem_cons_self
            simp only [RawTemplate.known, bind, Option.bind] at hx
            cases hb : x.blocks.reverse.mapM RawBlock.known with
            | none => rw [hb] at hx; cases hx
            | some bs => rw [hb] at hx; cases hx; exact this
          · exact ih us hr (fun y hy => hi y (List.mem_cons_of_mem _ hy)) p hp

/-- **C86** (any templates). Every list of templates with known words, also with unknown block types, is shown in this form. -/
theorem C86_shown (raws : List RawTemplate) (ts : List Template) (h : raws.mapM RawTemplate.known = some ts)
    (hk : ∀ t ∈ ts, t.trust.isSome ∧ t.encoding.isSome ∧ t.deprecation.isSome) :
    ∃ ls, printPacketList raws = .ok ls ∧ Listing ls (ts.zip (raws.map (·.msgNumHex))) :=
  printList_known raws ts h hk

/-- **C86** (readable). Two listings that are equal show the same templates (with word names), except for the sizes of variables. -/
theorem C86_readable (ls : List (List Char)) (tis tis' : List (Template × Bytes)) (h : Listing ls tis) (h' : Listing ls tis')
    (hw : ∀ p ∈ tis, WordNames p.1) (hw' : ∀ p ∈ tis', WordNames p.1) :
    tis.map (fun p => (withoutSizes p.1, p.2)) = tis'.map (fun p => (withoutSizes p.1, p.2)) :=
  listing_inj h h' hw hw'

/-- **C86** (two files). So two template files with the same listing declare the same messages, except for the sizes of variables. -/
theorem C86_files (v : PyVersion) (file file' : List (List Char)) (ts ts' : List Template) (h : Layout file ts) (h' : Layout file' ts')
    (raws raws' : List RawTemplate) (hp : parseTemplateFile v file = .ok raws) (hp' : parseTemplateFile v file' = .ok raws')
    (he : printPacketList raws = printPacketList raws') : ts.map withoutSizes = ts'.map withoutSizes := by
  have num : ∀ (f : List (List Char)) (us : List Template) (rs : List RawTemplate), Layout f us → parseTemplateFile v f = .ok rs →
      v = .v26 ∨ ∀ t ∈ us, t.msgNum < 256 := by
    intro f us rs hl hr
    cases v with
    | v26 => exact .inl rfl
    | v27 =>
      refine .inr fun t ht => ?_
      rcases Nat.lt_or_ge t.msgNum 256 with h | h
      · exact h
      · rw [layout_file_refused hl ⟨t, ht, h⟩] at hr; cases hr
  obtain ⟨r, tis, ls, a1, a2, a3, a4, _⟩ := C86_listing v file ts h (num _ _ _ h hp)
  obtain ⟨r', tis', ls', b1, b2, b3, b4, _⟩ := C86_listing v file' ts' h' (num _ _ _ h' hp')
  rw [hp] at a1; cases a1
  rw [hp'] at b1; cases b1
  rw [a2, b2] at he
  cases he
  have hw : ∀ p ∈ tis, WordNames p.1 := fun p hp => (layout_complete h p.1 (a4 ▸ List.mem_map_of_mem hp)).2.2.2.1
  have hw' : ∀ p ∈ tis', WordNames p.1 := fun p hp => (layout_complete h' p.1 (b4 ▸ List.mem_map_of_mem hp)).2.2.2.1
  have := congrArg (List.map Prod.fst) (listing_inj a3 b3 hw hw')
  rw [← a4, ← b4]
  simpa only [List.map_map, Function.comp_def] using this

/-- **C86** (the id shown). Of a Low message the listing made before a dictionary is built never shows the id of the wire: a byte is missing.
Of Medium and High messages it does. -/
theorem C86_id (f : Frequency) (n : Nat) (id : Bytes) (h : ParserId f n id) :
    (f = .low → id ≠ numPrefix f n ∧ ∀ m id', ParserId .low m id' → m % 256 = n % 256 → id' = id) ∧
    (f = .medium ∨ f = .high → id = numPrefix f n) := by
  refine ⟨?_, ?_⟩
  · rintro rfl
    refine ⟨?_, ?_⟩
    · intro e
      have h' : id = [255, 255, UInt8.ofNat n] := h
      rw [h'] at e
      have := congrArg List.length e
      cases this
    · intro m id' h1 h2
      have h' : id = [255, 255, UInt8.ofNat n] := h
      have h1' : id' = [255, 255, UInt8.ofNat m] := h1
      rw [h', h1']
      have : UInt8.ofNat m = UInt8.ofNat n := by
        apply UInt8.toNat_inj.mp
        simpa using h2
      rw [this]
  · rintro (rfl | rfl)
    · exact h
    · exact h

/-- **C86** (unknown words). The listing is made unless a trust, encoding, deprecation or variable type was not known to the parser:
then it is `TypeError`. -/
theorem C86_unknown (raws : List RawTemplate) :
    let Bad := ∃ t ∈ raws, t.trust = none ∨ t.encoding = none ∨ t.deprecation = none ∨ ∃ b ∈ t.blocks, ∃ x ∈ b.vars, x.type = none
    (Bad → printPacketList raws = .error .typeError) ∧ (¬ Bad → ∃ ls, printPacketList raws = .ok ls) := by
  rcases printList_cases raws with ⟨h1, h2⟩ | ⟨h1, h2⟩
  · exact ⟨fun _ => h2, fun h => absurd h1 h⟩
  · exact ⟨fun h => absurd h h1, fun _ => h2⟩

/-- **C86** (types). `get_all_types` is the sorted list of the types used, each once, or `TypeError` for an unknown one. -/
theorem C86_types (raws : List RawTemplate) :
    let Bad := ∃ t ∈ raws, ∃ b ∈ t.blocks, ∃ x ∈ b.vars, x.type = none
    (Bad → getAllTypes raws = .error .typeError) ∧
    (¬ Bad → ∃ l, getAllTypes raws = .ok l ∧ l.Pairwise (· < ·) ∧
      ∀ s, s ∈ l ↔ ∃ t ∈ raws, ∃ b ∈ t.blocks, ∃ x ∈ b.vars, ∃ ty, x.type = some ty ∧ s = (shownType ty).toList) := by
  rcases allTypes_cases raws with ⟨h1, h2⟩ | ⟨h1, h2⟩
  · exact ⟨fun _ => h2, fun h => absurd h1 h⟩
  · exact ⟨fun h => absurd h h1, fun _ => h2⟩

/-- **C86** (names). `print_packet_names` numbers the messages from one, and then shows how many there are of each frequency. -/
theorem C86_names (order : List Frequency) (raws : List RawTemplate) :
    printPacketNames order raws =
      (raws.zipIdx 1).flatMap (fun p => [List.replicate 81 '=', line [p.2.repr, p.1.name, shownFreq p.1.freq], List.replicate 81 '=']) ++
      [[]] ++ order.map (fun f => line [shownFreq f, ((raws.filter (fun t => t.freq = f)).length).repr]) ++ [[]] := by
  unfold printPacketNames
  rw [namesFrom_eq]
  congr 2
  · apply List.map_congr_left
    intro f _
    rw [countOf_eq, freq_shown, strNat_repr]
    simp [line, List.intercalate]

/-- **C86** (names of a dictionary). The names are those of the file, in order, with repetitions. -/
theorem C86_template_list (v : PyVersion) (file : List (List Char)) (ts : List Template) (h : Layout file ts)
    (hv : v = .v26 ∨ ∀ t ∈ ts, t.msgNum < 256) : ∃ raws, parseTemplateFile v file = .ok raws ∧ templateNames raws = ts.map (·.name) := by
  obtain ⟨raws, h1, h2⟩ := layout_file v h hv
  refine ⟨raws, h1, ?_⟩
  clear h1 h hv
  induction raws generalizing ts with
  | nil => cases h2; rfl
  | cons x raws ih =>
    simp only [List.mapM_cons] at h2
    cases hx : x.known with
    | none => rw [hx] at h2; cases h2
    | some t =>
      rw [hx] at h2
      cases hr : raws.mapM RawTemplate.known with
      | none => rw [hr] at h2; cases h2
      | some us =>
        rw [hr] at h2; cases h2
        have hn : x.name = t.name := by
          simp only [RawTemplate.known, bind, Option.bind] at hx
          cases hb : x.blocks.reverse.mapM RawBlock.known with
          | none => rw [hb] at hx; cases hx
          | some bs => rw [hb] at hx; cases hx; rfl
        have := ih us hr
        unfold templateNames at this ⊢
        rw [List.map_cons, List.map_cons, this, hn]

/-! ## The sample file -/

def sampleRaws : List RawTemplate := match parseTemplateFile .v26 sampleFile with | .ok r => r | .error _ => []

example : parseTemplateFile .v26 sampleFile = .ok sampleRaws := by decide +kernel

example : printPacketList sampleRaws = .ok [List.replicate 81 '=', chars! "Chat low 65535 FFFFFF NotTrusted Zerocoded NotDeprecated",
    chars! "\tAgent Multiple 3", chars! "\t\tID                  \tMVT_LLUUID", chars! "\t\tText                \tMVT_VARIABLE",
    List.replicate 81 '=', chars! "Ping fixed 247 FFFFFFF7 Trusted Unencoded UDPDeprecated"] := by decide +kernel

example : getAllTypes sampleRaws = .ok [chars! "MVT_LLUUID", chars! "MVT_VARIABLE"] := by decide +kernel

example : ((printPacketNames [.low, .fixed, .medium, .high] sampleRaws).map String.ofList).drop 4 =
    ["2 Ping fixed", String.ofList (List.replicate 81 '='), "", "low 1", "fixed 1", "medium 0", "high 0", ""] := by decide +kernel

/-- An unknown block type. -/
example : (printPacketList [⟨"A", .high, 1, [1], some .trusted, some .unencoded, some .deprecated, [⟨"B", .unknown, 0, []⟩]⟩]).map (·.drop 1) =
    .ok [chars! "A high 1 01 Trusted Unencoded Deprecated", chars! "\tB None 0"] := by decide +kernel

/-- A trust word the parser does not know. -/
example : (∃ t ∈ [(⟨"A", .low, 1, [], none, none, none, []⟩ : RawTemplate)], t.trust = none) ∧
    printPacketList [⟨"A", .low, 1, [], none, none, none, []⟩] = .error .typeError := by decide +kernel

end Pyogp
