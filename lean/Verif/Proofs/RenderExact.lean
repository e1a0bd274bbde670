import Mathlib.Tactic.Tauto
import Verif.Proofs.Render

/-! # Exactly which messages can be shown -/

namespace Pyogp
open Spec

/-- Appending a list of texts. -/
def joinTexts : List (Py Text) → Text → Py Text
  | [], t => .ok t
  | s :: l, t => do
    let s ← s
    let t ← t.append s
    joinTexts l t

theorem joinTexts_append (a b : List (Py Text)) : ∀ t, joinTexts (a ++ b) t = (do let t ← joinTexts a t; joinTexts b t) := by
  induction a with
  | nil => intro t; rfl
  | cons s a ih =>
    intro t
    simp only [List.cons_append, joinTexts]
    cases s with
    | error e => rfl
    | ok s =>
      simp only [bind, Except.bind]
      cases t.append s with
      | error e => rfl
      | ok t => simp only [ih, bind, Except.bind]

/-- The texts of one block. -/
def blockTexts (b : BlockData) (ns : List String) : List (Py Text) := ns.map (fun n => do let v ← b.getVariable n; v.render)

theorem render_texts (b : BlockData) (ns : List String) : ∀ t, b.render ns t = joinTexts (blockTexts b ns) t := by
  induction ns with
  | nil => intro t; rfl
  | cons n ns ih =>
    intro t
    show _ = joinTexts ((do let v ← b.getVariable n; v.render) :: blockTexts b ns) t
    unfold BlockData.render joinTexts
    cases b.getVariable n with
    | error e => rfl
    | ok v =>
      simp only [bind, Except.bind]
      cases v.render with
      | error e => rfl
      | ok s =>
        simp only
        cases t.append s with
        | error e => rfl
        | ok t => exact ih t

theorem renderBlocks_texts (bs : List BlockData) : ∀ t, renderBlocks bs t = joinTexts (bs.flatMap (fun b => blockTexts b b.varList)) t := by
  induction bs with
  | nil => intro t; rfl
  | cons b bs ih =>
    intro t
    rw [List.flatMap_cons, joinTexts_append]
    unfold renderBlocks
    rw [render_texts]
    cases joinTexts (blockTexts b b.varList) t with
    | error e => rfl
    | ok t => exact ih t

theorem renderDict_texts (d : Dict String (List BlockData)) : ∀ t, renderDict d t = joinTexts (d.flatMap (fun p => p.2.flatMap (fun b => blockTexts b b.varList))) t := by
  induction d with
  | nil => intro t; rfl
  | cons p d ih =>
    obtain ⟨k, bs⟩ := p
    intro t
    rw [List.flatMap_cons, joinTexts_append]
    unfold renderDict
    rw [renderBlocks_texts]
    cases joinTexts (bs.flatMap (fun b => blockTexts b b.varList)) t with
    | error e => rfl
    | ok t => exact ih t

/-- A `str` with a byte over 127. -/
def Text.isHighStr (t : Text) : Prop := t.unicode = false ∧ t.high = true

theorem joinTexts_iff (l : List (Py Text)) : ∀ t : Text,
    (∃ r, joinTexts l t = .ok r) ↔ (∀ s ∈ l, ∃ x, s = .ok x) ∧
      ¬ ((t.unicode = true ∨ ∃ x, Except.ok x ∈ l ∧ x.unicode = true) ∧ (t.isHighStr ∨ ∃ x, Except.ok x ∈ l ∧ x.isHighStr)) := by
  induction l with
  | nil =>
    intro t
    constructor
    · rintro -
      refine ⟨(by simp), ?_⟩
      rintro ⟨h | ⟨x, hx, -⟩, h' | ⟨x', hx', -⟩⟩
      · rw [h'.1] at h; cases h
      · cases hx'
      · cases hx
      · cases hx
    · rintro -; exact ⟨t, rfl⟩
  | cons s l ih =>
    intro t
    cases s with
    | error e =>
      constructor
      · rintro ⟨r, h⟩; cases h
      · rintro ⟨h, -⟩
        obtain ⟨x, hx⟩ := h _ List.mem_cons_self
        cases hx
    | ok s =>
      have hstep : joinTexts (.ok s :: l) t = (do let t ← t.append s; joinTexts l t) := rfl
      rw [hstep]
      have hmem : ∀ P : Text → Prop, (∃ x, Except.ok x ∈ ((.ok s : Py Text) :: l) ∧ P x) ↔ (P s ∨ ∃ x, (Except.ok x : Py Text) ∈ l ∧ P x) := by
        intro P
        constructor
        · rintro ⟨x, hx, hp⟩
          rcases List.mem_cons.mp hx with h | h
          · cases h; exact .inl hp
          · exact .inr ⟨x, h, hp⟩
        · rintro (h | ⟨x, hx, hp⟩)
          · exact ⟨s, List.mem_cons_self, h⟩
          · exact ⟨x, List.mem_cons_of_mem _ hx, hp⟩
      have hall : (∀ s' ∈ ((.ok s : Py Text) :: l), ∃ x, s' = .ok x) ↔ ∀ s' ∈ l, ∃ x, s' = .ok x := by
        constructor
        · intro h s' hs; exact h s' (List.mem_cons_of_mem _ hs)
        · intro h s' hs
          rcases List.mem_cons.mp hs with rfl | hs
          · exact ⟨s, rfl⟩
          · exact h s' hs
      rw [hall, hmem (fun x => x.unicode = true), hmem Text.isHighStr]
      obtain ⟨tu, th⟩ := t
      obtain ⟨su, sh⟩ := s
      cases tu <;> cases su <;> cases th <;> cases sh <;>
        simp only [Text.append, bind, Except.bind, Text.isHighStr, beq_self_eq_true, if_true, Bool.or_self, Bool.or_true, Bool.or_false, Bool.true_or, Bool.false_or, ih,
          reduceCtorEq, exists_false, if_false, beq_iff_eq, and_true, and_self, and_false, false_or, true_or, or_true, false_iff, not_and, not_true, Bool.false_eq_true] <;> try tauto

theorem asciiText_iff (d : PyVal) : (∀ u x, d = .unicode u → x ∈ u → x.toNat < 128) ↔ ∀ u, d = .unicode u → hasHigh u = false := by
  constructor
  · intro h u hu
    cases hh : hasHigh u with
    | false => rfl
    | true =>
      obtain ⟨x, h1, h2⟩ := (hasHigh_iff u).mp hh
      have := h u x hu h1
      omega
  · intro h u x hu hm
    refine Nat.lt_of_not_le fun hc => ?_
    have := (hasHigh_iff u).mpr ⟨x, hm, hc⟩
    rw [h u hu] at this
    cases this

/-- The three ways to show a variable. -/
theorem render_variable {v : VarData} (h : v.varType = some .variable) :
    v.render = match v.data with | .str b => .ok ⟨false, hasHigh b⟩ | .unicode b => .ok ⟨true, hasHigh b⟩ | _ => .error .typeError := by
  unfold VarData.render; rw [h]; rfl

theorem render_fixed {v : VarData} (h : v.varType = some .fixed) :
    v.render = match v.data with | .str b => if b.length % 2 = 0 then .ok {} else .error .structError | _ => .error .typeError := by
  unfold VarData.render; rw [h]; rfl

theorem render_other {v : VarData} (h1 : v.varType ≠ some .variable) (h2 : v.varType ≠ some .fixed) :
    v.render = match v.data with | .str b => .ok ⟨false, hasHigh b⟩ | .unicode b => if hasHigh b then .error .valueError else .ok {} | _ => .ok {} := by
  unfold VarData.render
  cases hv : v.varType with
  | none => rfl
  | some ty => cases ty <;> first | exact absurd hv h1 | exact absurd hv h2 | rfl

theorem render_ok_iff (v : VarData) : (∃ t, v.render = .ok t) ↔ Showable v := by
  unfold Showable
  rw [asciiText_iff]
  by_cases h1 : v.varType = some .variable
  · rw [render_variable h1, h1]
    cases v.data <;> simp
  · by_cases h2 : v.varType = some .fixed
    · rw [render_fixed h2, h2]
      cases v.data <;> simp
      rename_i b
      by_cases hb : b.length % 2 = 0 <;> simp [hb]
    · rw [render_other h1 h2]
      simp only [h1, h2, false_implies, true_and, ne_eq, not_false_eq_true, true_implies]
      cases v.data <;> simp
      rename_i u
      cases hasHigh u <;> simp

theorem render_unicode_iff (v : VarData) : (∃ t, v.render = .ok t ∧ t.unicode = true) ↔ ShownAsUnicode v := by
  unfold ShownAsUnicode
  by_cases h1 : v.varType = some .variable
  · rw [render_variable h1, h1]
    cases v.data <;> simp
  · by_cases h2 : v.varType = some .fixed
    · rw [render_fixed h2, h2]
      cases v.data <;> simp
      rename_i b
      by_cases hb : b.length % 2 = 0 <;> simp [hb]
    · rw [render_other h1 h2]
      simp only [h1, false_and, iff_false]
      cases v.data <;> simp
      rename_i u
      cases hasHigh u <;> simp

theorem render_high_iff (v : VarData) : (∃ t, v.render = .ok t ∧ t.isHighStr) ↔ ShownAsHighBytes v := by
  unfold ShownAsHighBytes Text.isHighStr
  have hx : (∃ s x, v.data = .str s ∧ x ∈ s ∧ 128 ≤ x.toNat) ↔ ∃ s, v.data = .str s ∧ hasHigh s = true := by
    constructor
    · rintro ⟨s, x, h, h'⟩; exact ⟨s, h, (hasHigh_iff s).mpr ⟨x, h'⟩⟩
    · rintro ⟨s, h, h'⟩
      obtain ⟨x, h'⟩ := (hasHigh_iff s).mp h'
      exact ⟨s, x, h, h'⟩
  rw [hx]
  by_cases h1 : v.varType = some .variable
  · rw [render_variable h1, h1]
    cases v.data <;> simp
  · by_cases h2 : v.varType = some .fixed
    · rw [render_fixed h2, h2]
      cases v.data <;> simp
      rename_i b
      by_cases hb : b.length % 2 = 0 <;> simp [hb]
    · rw [render_other h1 h2]
      simp only [h2, ne_eq, not_false_eq_true, true_and]
      cases v.data <;> simp
      rename_i u
      cases hasHigh u <;> simp

/-- The texts of a message whose variables are all there are those of its variables. -/
theorem mem_texts (m : Message) (hm : ∀ p ∈ m.blocks, ∀ b ∈ p.2, ∀ n ∈ b.varList, ∃ v, b.vars.get? n = some v) (s : Py Text) :
    s ∈ m.blocks.flatMap (fun p => p.2.flatMap (fun b => blockTexts b b.varList)) ↔ ∃ v, HasVariable m v ∧ v.render = s := by
  simp only [List.mem_flatMap, blockTexts, List.mem_map]
  constructor
  · rintro ⟨p, hp, b, hb, n, hn, rfl⟩
    obtain ⟨v, hv⟩ := hm p hp b hb n hn
    refine ⟨v, ⟨p, hp, b, hb, n, hn, hv⟩, ?_⟩
    unfold BlockData.getVariable Dict.get
    rw [hv]
    rfl
  · rintro ⟨v, ⟨p, hp, b, hb, n, hn, hv⟩, rfl⟩
    refine ⟨p, hp, b, hb, n, hn, ?_⟩
    unfold BlockData.getVariable Dict.get
    rw [hv]
    rfl

theorem Message.render_iff (m : Message) (hm : ∀ p ∈ m.blocks, ∀ b ∈ p.2, ∀ n ∈ b.varList, ∃ v, b.vars.get? n = some v) :
    (∃ t, m.render = .ok t) ↔ (∀ v, HasVariable m v → Showable v) ∧
      ¬ ((∃ v, HasVariable m v ∧ ShownAsUnicode v) ∧ ∃ v, HasVariable m v ∧ ShownAsHighBytes v) := by
  unfold Message.render
  rw [renderDict_texts, joinTexts_iff]
  have h1 : ∀ P : Text → Prop, ∀ Q : VarData → Prop, (∀ v, (∃ t, v.render = .ok t ∧ P t) ↔ Q v) →
      ((∃ x, (Except.ok x : Py Text) ∈ m.blocks.flatMap (fun p => p.2.flatMap (fun b => blockTexts b b.varList)) ∧ P x) ↔ ∃ v, HasVariable m v ∧ Q v) := by
    intro P Q hPQ
    constructor
    · rintro ⟨x, hx, hP⟩
      obtain ⟨v, hv, hr⟩ := (mem_texts m hm _).mp hx
      exact ⟨v, hv, (hPQ v).mp ⟨x, hr, hP⟩⟩
    · rintro ⟨v, hv, hQ⟩
      obtain ⟨t, ht, hP⟩ := (hPQ v).mpr hQ
      exact ⟨t, (mem_texts m hm _).mpr ⟨v, hv, ht⟩, hP⟩
  rw [h1 _ _ render_unicode_iff, h1 _ _ render_high_iff]
  have h2 : (∀ s ∈ m.blocks.flatMap (fun p => p.2.flatMap (fun b => blockTexts b b.varList)), ∃ x, s = .ok x) ↔ ∀ v, HasVariable m v → Showable v := by
    constructor
    · intro h v hv
      exact (render_ok_iff v).mp (h _ ((mem_texts m hm _).mpr ⟨v, hv, rfl⟩))
    · intro h s hs
      obtain ⟨v, hv, rfl⟩ := (mem_texts m hm _).mp hs
      exact (render_ok_iff v).mpr (h v hv)
  rw [h2]
  simp [Text.isHighStr]

end Pyogp
