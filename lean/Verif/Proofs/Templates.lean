import Verif.Proofs.EventQueue
import Verif.Props.Headers
import Verif.Data.Chars

/-! # Proofs about the template dictionary and the template parser -/

namespace Pyogp
open Spec

/-! ## The dictionary -/

/-- The template as the dictionary holds it: with the bytes of its number. -/
def identified (t : Template) : Template := { t with msgNumHex := numPrefix t.freq t.msgNum }

theorem set_fresh {κ α : Type} [DecidableEq κ] (d : Dict κ α) (k : κ) (v : α) (h : k ∉ d.keys) : d.set k v = d ++ [(k, v)] := by
  induction d with
  | nil => rfl
  | cons p d ih =>
    obtain ⟨a, b⟩ := p
    rw [Dict.keys_cons, List.mem_cons, not_or] at h
    have hne : ¬ a = k := fun e => h.1 e.symm
    simp only [Dict.set, hne, if_false, List.cons_append]
    rw [ih h.2]

theorem foldl_set_fresh {κ α β : Type} [DecidableEq κ] (key : β → κ) (val : β → α) (l : List β) : ∀ d : Dict κ α,
    (d.keys ++ l.map key).Nodup → l.foldl (fun d x => Dict.set d (key x) (val x)) d = d ++ l.map (fun x => (key x, val x)) := by
  induction l with
  | nil => intro d _; simp
  | cons x l ih =>
    intro d h
    have hx : key x ∉ d.keys := by
      rw [List.nodup_append] at h
      intro hm
      exact h.2.2 _ hm _ (by simp) rfl
    rw [List.foldl_cons, set_fresh d _ _ hx, ih]
    · simp
    · simpa [Dict.keys] using h

theorem buildDictionaries_eq (ts : List Template) (hn : (ts.map (·.name)).Nodup) (hp : (ts.map (fun t => (t.freq, t.msgNum))).Nodup) :
    buildDictionaries ts = ⟨ts.map (fun t => (t.name, t)), ts.map (fun t => ((t.freq, t.msgNum), t))⟩ := by
  have h : ∀ (l : List Template) (d : TemplateDict),
      l.foldl (fun (d : TemplateDict) t => { byName := d.byName.set t.name t, byPair := d.byPair.set (t.freq, t.msgNum) t }) d =
        ⟨l.foldl (fun d t => Dict.set d t.name t) d.byName, l.foldl (fun d t => Dict.set d (t.freq, t.msgNum) t) d.byPair⟩ := by
    intro l
    induction l with
    | nil => intro d; rfl
    | cons t l ih => intro d; rw [List.foldl_cons, ih]; rfl
  unfold buildDictionaries
  rw [h]
  have e1 := foldl_set_fresh (fun t : Template => t.name) (fun t => t) ts [] (by simpa [Dict.keys] using hn)
  have e2 := foldl_set_fresh (fun t : Template => (t.freq, t.msgNum)) (fun t => t) ts [] (by simpa [Dict.keys] using hp)
  simp only [e1, e2, List.nil_append]

theorem buildMessageIds_eq (rt : Runtime) (ts : List Template) (hc : ∀ t ∈ ts, InClass t.freq t.msgNum) :
    buildMessageIds rt (ts.map (fun t => (t.name, t))) = .ok (ts.map (fun t => (t.name, identified t))) := by
  induction ts with
  | nil => rfl
  | cons t ts ih =>
    have h1 := ih (fun t ht => hc t (List.mem_cons_of_mem _ ht))
    have h2 : withMessageId rt t = .ok (identified t) := by
      unfold withMessageId identified
      rw [messageId_eq rt (hc t List.mem_cons_self)]
      rfl
    simp only [List.map_cons, buildMessageIds, h2, h1]
    rfl

theorem build_eq (rt : Runtime) (ts : List Template) (hn : (ts.map (·.name)).Nodup)
    (hp : (ts.map (fun t => (t.freq, t.msgNum))).Nodup) (hc : ∀ t ∈ ts, InClass t.freq t.msgNum) :
    TemplateDict.build rt ts =
      .ok ⟨ts.map (fun t => (t.name, identified t)), ts.map (fun t => ((t.freq, t.msgNum), identified t))⟩ := by
  unfold TemplateDict.build
  rw [buildDictionaries_eq ts hn hp]
  simp only [buildMessageIds_eq rt ts hc]
  show Except.ok _ = _
  congr 2
  rw [List.map_map]
  apply List.map_congr_left
  intro t ht
  have k1 : (ts.map (fun t => (t.name, t))).map (·.1) = ts.map (·.name) := by rw [List.map_map]; rfl
  have k2 : (ts.map (fun t => (t.name, identified t))).map (·.1) = ts.map (·.name) := by rw [List.map_map]; rfl
  have h1 : Dict.get? (ts.map (fun t => (t.name, t))) t.name = some t :=
    Dict.get?_eq_some_of_mem (by rw [Dict.keys, k1]; exact hn) (List.mem_map.mpr ⟨t, ht, rfl⟩)
  have h2 : Dict.get? (ts.map (fun t => (t.name, identified t))) t.name = some (identified t) :=
    Dict.get?_eq_some_of_mem (by rw [Dict.keys, k2]; exact hn) (List.mem_map.mpr ⟨t, ht, rfl⟩)
  simp only [Function.comp, h1, h2, if_true]

theorem build_lookup (rt : Runtime) (ts : List Template) (hn : (ts.map (·.name)).Nodup)
    (hp : (ts.map (fun t => (t.freq, t.msgNum))).Nodup) (hc : ∀ t ∈ ts, InClass t.freq t.msgNum) :
    ∃ d, TemplateDict.build rt ts = .ok d ∧
      (∀ t ∈ ts, d.getTemplate t.name = some (identified t) ∧ d.getTemplateByPair t.freq t.msgNum = some (identified t)) ∧
      (∀ n, n ∉ ts.map (·.name) → d.getTemplate n = none) ∧
      (∀ f k, (f, k) ∉ ts.map (fun t => (t.freq, t.msgNum)) → d.getTemplateByPair f k = none) := by
  refine ⟨_, build_eq rt ts hn hp hc, ?_, ?_, ?_⟩
  · intro t ht
    constructor
    · exact Dict.get?_eq_some_of_mem (by simp only [Dict.keys, List.map_map]; exact hn) (List.mem_map.mpr ⟨t, ht, rfl⟩)
    · exact Dict.get?_eq_some_of_mem (by simp only [Dict.keys, List.map_map]; exact hp) (List.mem_map.mpr ⟨t, ht, rfl⟩)
  · intro n h
    refine (Dict.get?_eq_none_iff _ n).mpr ?_
    simp only [Dict.keys, List.map_map]
    exact h
  · intro f k h
    refine (Dict.get?_eq_none_iff _ (f, k)).mpr ?_
    simp only [Dict.keys, List.map_map]
    exact h

/-! ## Lines -/

theorem parseLines_append (v : PyVersion) (a b : List (List Char)) : ∀ st,
    parseLines v st (a ++ b) = (parseLines v st a).bind (fun st' => parseLines v st' b) := by
  induction a with
  | nil => intro st; rfl
  | cons l a ih =>
    intro st
    simp only [List.cons_append, parseLines]
    cases h : parseLine v st l with
    | error e => rfl
    | ok st' => exact ih st'

theorem parseLines_chunks {cs : List (List (List Char))} {rs : List RawTemplate} (h : List.Forall₂ ChunkOk cs rs) :
    ∀ (v : List Char) (older : List RawTemplate),
      parseLines .v26 ⟨some v, 0, older⟩ cs.flatten = .ok ⟨some v, 0, rs.reverse ++ older⟩ := by
  induction h with
  | nil => intro v older; rfl
  | cons hc _ ih =>
    intro v older
    rw [List.flatten_cons, parseLines_append, hc v older]
    show parseLines _ _ _ = _
    rw [ih]
    simp

/-! ## Python 2.7 refuses what Python 2.6 masks -/

/-- `y` is what 2.6 gives, or a `struct.error`. -/
def Refines {α : Type} (y x : Py α) : Prop := y = x ∨ y = .error .structError

theorem Refines.refl {α : Type} (x : Py α) : Refines x x := .inl rfl

theorem Refines.bind {α β : Type} {y x : Py α} {g f : α → Py β} (h : Refines y x) (hf : ∀ a, Refines (g a) (f a)) :
    Refines (y.bind g) (x.bind f) := by
  rcases h with rfl | rfl
  · cases y with
    | error e => exact .inl rfl
    | ok a => exact hf a
  · exact .inr rfl

theorem structPack_refines (e : Endian) (f : IntFmt) (x : Int) : Refines (structPack .v27 e f x) (structPack .v26 e f x) := by
  unfold structPack
  by_cases h : f.lo ≤ x ∧ x < f.hi
  · simp only [h]; exact .inl rfl
  · simp only [h]; exact .inr rfl

theorem numOfFreq_refines (f : Option Frequency) (n : Nat) : Refines (numOfFreq .v27 f n) (numOfFreq .v26 f n) := by
  unfold numOfFreq
  cases f with
  | none => exact .refl _
  | some f => cases f <;> exact (structPack_refines _ _ _).bind (fun _ => .refl _)

theorem startNewTemplate_refines (m : List (List Char) × Option (List Char)) :
    Refines (startNewTemplate .v27 m) (startNewTemplate .v26 m) := by
  unfold startNewTemplate
  split
  · refine Refines.bind (.refl _) (fun n => ?_)
    exact (numOfFreq_refines _ _).bind (fun _ => .refl _)
  · exact .refl _

theorem parseLine_refines (st : ParserState) (l : List Char) : Refines (parseLine .v27 st l) (parseLine .v26 st l) := by
  unfold parseLine
  by_cases hc : isComment l = true
  · simp only [hc, if_true]; exact .refl _
  · simp only [hc, Bool.false_eq_true, if_false]
    refine Refines.bind (.refl _) (fun st => ?_)
    refine Refines.bind ?_ (fun st => .refl _)
    unfold stepMessage
    by_cases h1 : (openBrace l st).state = 1
    · simp only [h1, if_true]
      cases matchMessageHeader l with
      | none => exact .refl _
      | some m => exact (startNewTemplate_refines m).bind (fun _ => .refl _)
    · simp only [h1, if_false]; exact .refl _

theorem parseLines_refines (ls : List (List Char)) : ∀ st, Refines (parseLines .v27 st ls) (parseLines .v26 st ls) := by
  induction ls with
  | nil => intro st; exact .refl _
  | cons l ls ih =>
    intro st
    simp only [parseLines]
    exact (parseLine_refines st l).bind ih

end Pyogp
