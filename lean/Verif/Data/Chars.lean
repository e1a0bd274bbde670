import Lean.Elab.Tactic
import Mathlib.Data.List.Forall2
import Verif.Model.TemplateParser
import Verif.Spec.Transmit

/-!
# Literal text

`chars! "…"` is the list of the characters of the literal, one constructor application each: the kernel computes with it directly, while
decoding a `String` is slow there.  `kernel_rfl` closes an equation by reflexivity without elaborator checks: the kernel does the work.
-/

namespace Pyogp

open Lean Elab Term Meta Tactic in
elab "chars!" s:str : term => do
  let l := s.getString.toList.map (fun c => mkApp (mkConst ``Char.ofNat) (mkRawNatLit c.toNat))
  mkListLit (mkConst ``Char) l

open Lean Elab Term Meta Tactic in
elab "kernel_rfl" : tactic => do
  let g ← getMainGoal
  let ty ← instantiateMVars (← g.getType')
  match ty.eq? with
  | some (α, a, _) => g.assign (mkApp2 (mkConst ``Eq.refl [← getLevel α]) α a)
  | none => throwError "kernel_rfl: the goal is not an equation"

/-- In the state between two messages, these lines add this template and nothing else. -/
def ChunkOk (c : List (List Char)) (r : RawTemplate) : Prop :=
  ∀ (v : List Char) (older : List RawTemplate), parseLines .v26 ⟨some v, 0, older⟩ c = .ok ⟨some v, 0, r :: older⟩

/-- A word as a number. -/
def wordCode (w : List Char) : Nat := w.foldr (fun c n => c.toNat + 1 + 4294967296 * n) 0

/-- No repetition. -/
def distinct : List Nat → Bool
  | [] => true
  | a :: l => l.all (fun b => !Nat.beq a b) && distinct l

/-- Names are not repeated. -/
def namesOk (l : List (List Char × List (List Char))) : Bool :=
  distinct (l.map (fun x => wordCode x.1)) && l.all (fun x => distinct (x.2.map wordCode))

/-- Sizes fit types. -/
def varOk (x : TVar) : Bool :=
  match Spec.wireWidth x.type with
  | some n => Nat.beq x.size n
  | none => match x.type with
    | .variable => Nat.beq x.size 1 || Nat.beq x.size 2 || Nat.beq x.size 4
    | _ => Nat.blt 0 x.size

/-- The number fits the frequency class. -/
def classOk (t : Template) : Bool :=
  match t.freq with
  | .low => Nat.blt t.msgNum 0xff00
  | .fixed => Nat.blt t.msgNum 256
  | _ => Nat.blt t.msgNum 255

/-- What the kernel checks of each template. -/
def Checked (t : Template) : Prop :=
  ∃ l : List (List Char × List (List Char)),
    t.blocks.map (fun b => (b.name, b.vars.map (·.name))) = l.map (fun x => (String.ofList x.1, x.2.map String.ofList)) ∧ namesOk l = true ∧
    (classOk t && t.blocks.all (fun b => b.vars.all varOk)) = true

theorem forall_mem_append {α : Type} {p : α → Prop} {a b : List α} (ha : ∀ x ∈ a, p x) (hb : ∀ x ∈ b, p x) : ∀ x ∈ a ++ b, p x :=
  fun x hx => (List.mem_append.mp hx).elim (ha x) (hb x)

theorem forall₂_append {α β : Type} {R : α → β → Prop} {a c : List α} {b d : List β} (h : List.Forall₂ R a b) (h' : List.Forall₂ R c d) :
    List.Forall₂ R (a ++ c) (b ++ d) := by
  induction h with
  | nil => exact h'
  | cons h _ ih => exact .cons h ih

end Pyogp
