import Verif.Model.Base

namespace Pyogp

/-- A successful sequence of two computations. -/
theorem bind_ok {ε α β : Type} {m : Except ε α} {f : α → Except ε β} {b : β} :
    (m >>= f) = .ok b ↔ ∃ a, m = .ok a ∧ f a = .ok b := by
  cases m with
  | error e =>
    constructor
    · intro h; cases h
    · rintro ⟨a, h, _⟩; cases h
  | ok a =>
    constructor
    · intro h; exact ⟨a, rfl, h⟩
    · rintro ⟨a', h, h'⟩; cases h; exact h'

/-- A failed sequence of two computations. -/
theorem bind_error {ε α β : Type} {m : Except ε α} {f : α → Except ε β} {e : ε} :
    (m >>= f) = .error e ↔ m = .error e ∨ ∃ a, m = .ok a ∧ f a = .error e := by
  cases m with
  | error e' =>
    constructor
    · intro h; left; cases h; rfl
    · rintro (h | ⟨a, h, _⟩)
      · cases h; rfl
      · cases h
  | ok a =>
    constructor
    · intro h; exact .inr ⟨a, rfl, h⟩
    · rintro (h | ⟨a', h, h'⟩)
      · cases h
      · cases h; exact h'

theorem ok_bind {ε α β : Type} (a : α) (f : α → Except ε β) : ((Except.ok a : Except ε α) >>= f) = f a := rfl
theorem error_bind {ε α β : Type} (e : ε) (f : α → Except ε β) : ((Except.error e : Except ε α) >>= f) = .error e := rfl

/-- Check a decidable property of the message a computation returns (for concrete examples). -/
def okSome {α : Type} (x : Py (Option α)) (p : α → Bool) : Bool :=
  match x with
  | .ok (some a) => p a
  | _ => false

theorem of_okSome {α : Type} {x : Py (Option α)} {p : α → Bool} (h : okSome x p = true) :
    ∃ a, x = .ok (some a) ∧ p a = true := by
  unfold okSome at h
  split at h
  · exact ⟨_, rfl, h⟩
  · cases h

end Pyogp
