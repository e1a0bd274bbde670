import Verif.Model.Struct

namespace Pyogp

@[simp] theorem leBytes_length (k n : Nat) : (leBytes k n).length = k := by
  induction k generalizing n with
  | zero => rfl
  | succ k ih => simp [leBytes, ih]

theorem leVal_lt (b : Bytes) : leVal b < 256 ^ b.length := by
  induction b with
  | nil => simp [leVal]
  | cons x b ih =>
    have := x.toNat_lt
    simp only [leVal, List.length_cons, Nat.pow_succ]
    omega

theorem leVal_leBytes (k n : Nat) : leVal (leBytes k n) = n % 256 ^ k := by
  induction k generalizing n with
  | zero => simp [leBytes, leVal, Nat.mod_one]
  | succ k ih =>
    simp only [leBytes, leVal, ih, UInt8.toNat_ofNat']
    rw [show 256 ^ (k + 1) = 256 * 256 ^ k from by rw [Nat.pow_succ, Nat.mul_comm], Nat.mod_mul]
    simp

theorem leBytes_leVal (b : Bytes) : leBytes b.length (leVal b) = b := by
  induction b with
  | nil => rfl
  | cons x b ih =>
    have := x.toNat_lt
    simp only [List.length_cons, leBytes, leVal]
    have h1 : (x.toNat + 256 * leVal b) / 256 = leVal b := by omega
    have h2 : (x.toNat + 256 * leVal b) % 256 = x.toNat := by omega
    rw [h1, h2, ih]
    simp

theorem leBytes_leVal_of_length {b : Bytes} {k : Nat} (h : b.length = k) : leBytes k (leVal b) = b := by
  subst h; exact leBytes_leVal b

@[simp] theorem order_length (e : Endian) (b : Bytes) : (e.order b).length = b.length := by
  cases e <;> simp [Endian.order]

@[simp] theorem order_order (e : Endian) (b : Bytes) : e.order (e.order b) = b := by
  cases e <;> simp [Endian.order]

theorem pow256 (k : Nat) : 256 ^ k = 2 ^ (8 * k) := by
  rw [Nat.pow_mul]

theorem structPack_length {v e f x b} (h : structPack v e f x = .ok b) : b.length = f.size := by
  unfold structPack at h
  simp only at h
  split at h
  · cases h; simp
  · cases v <;> simp only at h
    · split at h <;> cases h
      simp
    · cases h

theorem structUnpack_structPack {v e f x} (h : f.lo ≤ x ∧ x < f.hi) :
    ∃ b, structPack v e f x = .ok b ∧ structUnpack e f b = .ok x := by
  refine ⟨_, by unfold structPack; simp only; rw [if_pos h], ?_⟩
  unfold structUnpack
  simp only [order_length, leBytes_length, if_true, order_order, leVal_leBytes, pow256]
  obtain ⟨h1, h2⟩ := h
  cases f <;> simp [IntFmt.lo, IntFmt.hi, IntFmt.signed, IntFmt.size] at h1 h2 ⊢
  all_goals first
    | omega
    | (split <;> · congr 1; omega)

theorem structPack_structUnpack {v e f b} (h : b.length = f.size) :
    ∃ x, structUnpack e f b = .ok x ∧ f.lo ≤ x ∧ x < f.hi ∧ structPack v e f x = .ok b := by
  have hl := leVal_lt (e.order b)
  rw [order_length, h, pow256] at hl
  have key : ∀ x : Int, f.lo ≤ x → x < f.hi → (x % (2 ^ (8 * f.size) : Nat)).toNat = leVal (e.order b) →
      structPack v e f x = .ok b := by
    intro x h1 h2 h3
    unfold structPack
    simp only
    rw [if_pos ⟨h1, h2⟩, h3, leBytes_leVal_of_length (by simp [h]), order_order]
  unfold structUnpack
  simp only [h, if_true]
  generalize leVal (e.order b) = n at *
  cases f <;> simp [IntFmt.lo, IntFmt.hi, IntFmt.signed, IntFmt.size] at hl key ⊢
  case b | h | i | q =>
    split
    · exact ⟨_, rfl, by omega, by omega, key _ (by omega) (by omega) (by omega)⟩
    · exact ⟨_, rfl, by omega, by omega, key _ (by omega) (by omega) (by omega)⟩
  all_goals exact ⟨by omega, key _ (by omega) (by omega) (by omega)⟩

theorem structUnpack_wrong_length {e f b} (h : b.length ≠ f.size) :
    structUnpack e f b = .error .structError := by
  unfold structUnpack; rw [if_neg h]

end Pyogp
