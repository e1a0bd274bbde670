import Verif.Data.Template
import Verif.Data.MessageXml
import Verif.Proofs.TemplateFile

/-! # The embedded data files -/

namespace Pyogp
open Spec

/-! ## Names as numbers -/

theorem wordCode_inj : ∀ a b : List Char, wordCode a = wordCode b → a = b
  | [], [], _ => rfl
  | [], c :: l, h => by
    exfalso
    have h' : 0 = c.toNat + 1 + 4294967296 * wordCode l := h
    omega
  | c :: l, [], h => by
    exfalso
    have h' : c.toNat + 1 + 4294967296 * wordCode l = 0 := h
    omega
  | c :: l, d :: r, h => by
    have h' : c.toNat + 1 + 4294967296 * wordCode l = d.toNat + 1 + 4294967296 * wordCode r := h
    have hc : c.toNat < 1114112 := by
      rcases c.valid with h | h
      · have : c.toNat < 55296 := h
        omega
      · exact h.2
    have hd : d.toNat < 1114112 := by
      rcases d.valid with h | h
      · have : d.toNat < 55296 := h
        omega
      · exact h.2
    have h1 : c.toNat = d.toNat := by omega
    have h2 : wordCode l = wordCode r := by omega
    rw [(char_eq_iff c d).mpr h1, wordCode_inj l r h2]

theorem ofList_inj {a b : List Char} (h : String.ofList a = String.ofList b) : a = b := by
  have := congrArg String.toList h
  simpa using this

theorem distinct_nodup : ∀ l : List Nat, distinct l = true → l.Nodup
  | [], _ => List.nodup_nil
  | a :: l, h => by
    simp only [distinct, Bool.and_eq_true, List.all_eq_true, Bool.not_eq_true'] at h
    refine List.nodup_cons.mpr ⟨fun hm => ?_, distinct_nodup l h.2⟩
    have := h.1 a hm
    rw [Nat.beq_refl] at this
    cases this

theorem nodup_of_map {α β : Type} (f : α → β) {l : List α} (h : (l.map f).Nodup) : l.Nodup := by
  induction l with
  | nil => exact List.nodup_nil
  | cons a l ih =>
    rw [List.map_cons, List.nodup_cons] at h
    exact List.nodup_cons.mpr ⟨fun hm => h.1 (List.mem_map.mpr ⟨a, hm, rfl⟩), ih h.2⟩

theorem nodup_map_inj {α β : Type} {f : α → β} (hf : ∀ a b, f a = f b → a = b) {l : List α} (h : l.Nodup) : (l.map f).Nodup := by
  induction l with
  | nil => exact List.nodup_nil
  | cons a l ih =>
    rw [List.nodup_cons] at h
    rw [List.map_cons]
    refine List.nodup_cons.mpr ⟨fun hm => ?_, ih h.2⟩
    obtain ⟨b, hb, he⟩ := List.mem_map.mp hm
    exact h.1 (hf b a he ▸ hb)

theorem words_nodup {l : List (List Char)} (h : distinct (l.map wordCode) = true) : (l.map String.ofList).Nodup :=
  nodup_map_inj (fun _ _ => ofList_inj) (nodup_of_map wordCode (distinct_nodup _ h))

/-! ## Each template -/

theorem varOk_wf {x : TVar} (h : varOk x = true) : WFVar x := by
  unfold varOk at h
  unfold WFVar
  cases hw : wireWidth x.type with
  | some n => simpa [hw, Nat.beq_eq] using h
  | none =>
    rw [hw] at h
    revert h
    cases hx : x.type with
    | «variable» => simp [Bool.or_eq_true, Nat.beq_eq, or_assoc]
    | _ => simp [Nat.blt]; try omega

theorem classOk_inClass {t : Template} (h : classOk t = true) : InClass t.freq t.msgNum := by
  unfold classOk at h
  revert h
  cases t.freq <;> intro h <;> simp only [Nat.blt_eq] at h <;> exact h

theorem checked_wf {t : Template} (h : Checked t) : WFTemplate (identified t) := by
  obtain ⟨l, h1, h2, h3⟩ := h
  simp only [namesOk, Bool.and_eq_true, List.all_eq_true] at h2
  simp only [Bool.and_eq_true, List.all_eq_true] at h3
  refine ⟨fun tb htb v hv => varOk_wf (h3.2 tb htb v hv), ?_, ?_, classOk_inClass h3.1, rfl⟩
  · have e : t.blocks.map (·.name) = (l.map (·.1)).map String.ofList := by
      have := congrArg (List.map (fun x : String × List String => x.1)) h1
      simpa [List.map_map, Function.comp_def] using this
    show (t.blocks.map (·.name)).Nodup
    rw [e]
    exact words_nodup (by rw [List.map_map]; exact h2.1)
  · intro tb htb
    have hm : (tb.name, tb.vars.map (·.name)) ∈ l.map (fun x => (String.ofList x.1, x.2.map String.ofList)) := by
      rw [← h1]; exact List.mem_map.mpr ⟨tb, htb, rfl⟩
    obtain ⟨x, hx, he⟩ := List.mem_map.mp hm
    have e : tb.vars.map (·.name) = x.2.map String.ofList := (congrArg Prod.snd he).symm
    rw [e]
    exact words_nodup (h2.2 x hx)

/-! ## The file -/

namespace Embedded

theorem file_v26 {head tail : List (List Char)} {chunks : List (List (List Char))} {rs : List RawTemplate} {v : List Char}
    (h1 : parseLines .v26 ⟨none, 0, []⟩ head = .ok ⟨some v, 0, []⟩) (h2 : List.Forall₂ ChunkOk chunks rs)
    (h3 : ∀ v older, parseLines .v26 ⟨some v, 0, older⟩ tail = .ok ⟨some v, 0, older⟩) :
    parseTemplateFile .v26 (head ++ chunks.flatten ++ tail) = .ok rs := by
  unfold parseTemplateFile
  rw [parseLines_append, parseLines_append, h1]
  simp only [Except.bind, parseLines_chunks h2, h3, bind]
  simp

theorem file_v27 {head tail : List (List Char)} {before after : List (List (List Char))} {c : List (List Char)} {rs : List RawTemplate}
    {v : List Char} (h1 : parseLines .v27 ⟨none, 0, []⟩ head = .ok ⟨some v, 0, []⟩) (h2 : List.Forall₂ ChunkOk before rs)
    (h3 : ∀ v older, parseLines .v27 ⟨some v, 0, older⟩ c = .error .structError) :
    parseTemplateFile .v27 (head ++ (before ++ c :: after).flatten ++ tail) = .error .structError := by
  unfold parseTemplateFile
  rw [parseLines_append, parseLines_append, h1, List.flatten_append, List.flatten_cons]
  simp only [Except.bind]
  rw [parseLines_append]
  rcases parseLines_refines before.flatten ⟨some v, 0, []⟩ with h | h
  · rw [h, parseLines_chunks h2]
    simp only [Except.bind]
    rw [parseLines_append, h3]
    rfl
  · rw [h]; rfl

theorem parse_v26 : parseTemplateFile .v26 file = .ok all_raws := file_v26 (head_ok .v26) all_parsed (tail_ok .v26)

theorem file_split : file = headLines ++ (all_lines.take 298 ++ c298 :: all_lines.drop 299).flatten ++ tailLines :=
  congrArg (fun x : List (List (List Char)) => headLines ++ x.flatten ++ tailLines) all_lines_split

theorem parse_v27 : parseTemplateFile .v27 file = .error .structError := by
  rw [file_split]
  exact file_v27 (head_ok .v27) (List.forall₂_take 298 all_parsed) refused

theorem mapM_forall₂ {α β : Type} {f : α → Option β} {as : List α} {bs : List β} (h : List.Forall₂ (fun a b => f a = some b) as bs) :
    as.mapM f = some bs := by
  induction h with
  | nil => rfl
  | cons h _ ih => simp [h, ih]

theorem known : all_raws.mapM RawTemplate.known = some all_templates := mapM_forall₂ all_known

theorem names_eq : all_templates.map (·.name) = all_names.map String.ofList := by
  have h := all_named
  revert h
  generalize all_templates = ts
  generalize all_names = ns
  intro h
  induction h with
  | nil => rfl
  | cons h _ ih => simp [h, ih]

theorem names_nodup : (all_templates.map (·.name)).Nodup := by
  rw [names_eq]
  exact words_nodup (by kernel_rfl)

/-- Frequency and number as one number. -/
def pairCode (f : Frequency) (n : Nat) : Nat :=
  4 * n + (match f with | .low => 0 | .medium => 1 | .high => 2 | .fixed => 3)

theorem pairs_nodup : (all_templates.map (fun t => (t.freq, t.msgNum))).Nodup := by
  refine nodup_of_map (fun p => pairCode p.1 p.2) ?_
  rw [List.map_map]
  exact distinct_nodup _ (by kernel_rfl)

theorem all_inClass : ∀ t ∈ all_templates, InClass t.freq t.msgNum := fun t ht => (checked_wf (all_checked t ht)).inClass

theorem flavors : ∀ t ∈ all_templates, messageXml.get? t.name ≠ some none := by
  intro t ht hx
  have h1 : t.name ∈ (messageXml.filter (fun e => e.2.isNone)).map (·.1) :=
    List.mem_map.mpr ⟨(t.name, none), List.mem_filter.mpr ⟨Dict.mem_of_get? hx, rfl⟩, rfl⟩
  have h2 : t.name ∈ all_names.map String.ofList := by rw [← names_eq]; exact List.mem_map.mpr ⟨t, ht, rfl⟩
  rw [flavorless_eq] at h1
  obtain ⟨a, ha, ea⟩ := List.mem_map.mp h1
  obtain ⟨b, hb, eb⟩ := List.mem_map.mp h2
  have hab : a = b := ofList_inj (ea.trans eb.symm)
  subst hab
  have hd : distinct ((flavorless ++ all_names).map wordCode) = true := by kernel_rfl
  have hn := nodup_of_map wordCode (distinct_nodup _ hd)
  exact (List.nodup_append.mp hn).2.2 a ha a hb rfl

/-- The names in message.xml with another flavor than `template` that are no messages of the template. -/
def foreignNames : List (List Char) :=
  [chars! "EstablishAgentCommunication", chars! "ChatterBoxSessionStartReply", chars! "ChatterBoxSessionEventReply", chars! "ForceCloseChatterBoxSession", chars! "ChatterBoxSessionAgentListUpdates", chars! "ChatterBoxSessionUpdate", chars! "ChatterBoxInvitation", chars! "ParcelVoiceInfoRequest", chars! "ParcelVoiceInfo", chars! "ProvisionVoiceAccountRequest", chars! "RequiredVoiceVersion"]

theorem banned (t : Template) (ht : t ∈ all_templates)
    (h1 : t.name ∈ (messageXml.filter (fun e => decide (e.2 ≠ some "template" ∧ e.2 ≠ none))).map (·.1)) :
    t.name ∈ ["PlacesReply", "DirLandReply", "ParcelObjectOwnersReply", "TeleportFinish", "TeleportFailed", "CrossedRegion", "EnableSimulator", "GodKickUser", "ParcelProperties", "ScriptRunningReply", "RoutedMoneyBalanceReply", "StartGroupProposal", "GroupProposalBallot", "AgentGroupDataUpdate", "AgentDropGroup", "RpcScriptRequestInboundForward", "LandStatReply"] := by
  have he : ∀ n ∈ (messageXml.filter (fun e => decide (e.2 ≠ some "template" ∧ e.2 ≠ none))).map (·.1),
      n ∈ ["PlacesReply", "DirLandReply", "ParcelObjectOwnersReply", "TeleportFinish", "TeleportFailed", "CrossedRegion", "EnableSimulator", "GodKickUser", "ParcelProperties", "ScriptRunningReply", "RoutedMoneyBalanceReply", "StartGroupProposal", "GroupProposalBallot", "AgentGroupDataUpdate", "AgentDropGroup", "RpcScriptRequestInboundForward", "LandStatReply"] ∨
      n ∈ foreignNames.map String.ofList := by decide +kernel
  rcases he _ h1 with h | h
  · exact h
  · exfalso
    have h2 : t.name ∈ all_names.map String.ofList := by rw [← names_eq]; exact List.mem_map.mpr ⟨t, ht, rfl⟩
    obtain ⟨a, ha, ea⟩ := List.mem_map.mp h
    obtain ⟨b, hb, eb⟩ := List.mem_map.mp h2
    have hab : a = b := ofList_inj (ea.trans eb.symm)
    subst hab
    have hd : distinct ((foreignNames ++ all_names).map wordCode) = true := by kernel_rfl
    have hn := nodup_of_map wordCode (distinct_nodup _ hd)
    exact (List.nodup_append.mp hn).2.2 a ha a hb rfl

end Embedded
end Pyogp
