import Verif.Proofs.Float
import Verif.Model.Types
import Verif.Spec.Wire

namespace Pyogp
open Spec

/-- The integer codec of an integer wire type. -/
theorem table_of_wireInt {ty n s d} (h : wireInt ty = some (n, s, d)) :
    ∃ f : IntFmt, packerTable ty = (d, .int f) ∧ unpackerTable ty = (d, .int f) ∧ f.size = n ∧ f.signed = s ∧
      sizeof ty = some n := by
  cases ty <;> simp only [wireInt, Option.some.injEq, Prod.mk.injEq, reduceCtorEq] at h <;>
    obtain ⟨rfl, rfl, rfl⟩ := h <;>
    exact ⟨_, rfl, rfl, rfl, rfl, rfl⟩

theorem inRange_iff {f : IntFmt} {x : Int} : InRange f.size f.signed x ↔ (f.lo ≤ x ∧ x < f.hi) := by
  cases f <;> simp [InRange, IntFmt.size, IntFmt.signed, IntFmt.lo, IntFmt.hi]

theorem unpackData_int {rt : Runtime} {ty d f} (h : unpackerTable ty = (d, .int f)) (data : Bytes)
    (start? size? : Option Nat) (en? : Option Endian) :
    unpackData rt data ty start? size? en? =
      wrapStructError (do .ok (.num (.int (← structUnpack (en?.getD d) f (selectBytes data ty start? size?))))) := by
  unfold unpackData
  rw [h]
  simp only [Codec.unpack]

theorem packData_int {rt : Runtime} {ty d f} (h : packerTable ty = (d, .int f)) (x : Int) (en? : Option Endian) :
    packData rt (.num (.int x)) ty en? = structPack rt.ver (en?.getD d) f x := by
  unfold packData
  rw [h]
  simp only [Codec.pack, packIntVal]

theorem leBytes_getElem? {k n i : Nat} (hi : i < k) :
    (leBytes k n)[i]? = some (UInt8.ofNat (n / 256 ^ i % 256)) := by
  induction k generalizing n i with
  | zero => omega
  | succ k ih =>
    cases i with
    | zero => simp [leBytes]
    | succ i =>
      simp only [leBytes, List.getElem?_cons_succ]
      rw [ih (by omega), Nat.div_div_eq_div_mul, Nat.pow_succ, Nat.mul_comm 256]

theorem int_digit (x : Int) (k i : Nat) (hi : i < k) :
    ((x % ((2 ^ (8 * k) : Nat) : Int)).toNat / 256 ^ i % 256) = (x / (256 : Int) ^ i % 256).toNat := by
  have hp : (0 : Int) < ((2 ^ (8 * k) : Nat) : Int) := by
    have := Nat.two_pow_pos (8 * k); omega
  have h0 := Int.emod_nonneg x (Int.ne_of_gt hp)
  apply Int.ofNat.inj
  simp only [Int.ofNat_eq_natCast]
  rw [Int.toNat_of_nonneg (Int.emod_nonneg _ (by decide))]
  rw [Int.natCast_emod, Int.natCast_ediv, Int.toNat_of_nonneg h0]
  have e : ((2 ^ (8 * k) : Nat) : Int) = ((256 : Int) ^ i) * (256 * 256 ^ (k - 1 - i)) := by
    rw [← pow256]
    have : k = i + (1 + (k - 1 - i)) := by omega
    conv => lhs; rw [this]
    rw [Nat.pow_add, Nat.pow_add]
    simp [Int.natCast_mul, Int.natCast_pow]
  rw [e]
  have hpi : (0 : Int) < (256 : Int) ^ i := by exact Int.pow_pos (by decide)
  have : ((256 ^ i : Nat) : Int) = (256 : Int) ^ i := by simp [Int.natCast_pow]
  rw [this]
  rw [Int.emod_def x (_ * _), show (256 : Int) ^ i * (256 * 256 ^ (k - 1 - i)) * (x / ((256 : Int) ^ i * (256 * 256 ^ (k - 1 - i)))) =
    (256 : Int) ^ i * (256 * (256 ^ (k - 1 - i) * (x / ((256 : Int) ^ i * (256 * 256 ^ (k - 1 - i)))))) by
      simp only [Int.mul_assoc]]
  generalize (256 : Int) ^ (k - 1 - i) * (x / ((256 : Int) ^ i * (256 * 256 ^ (k - 1 - i)))) = q
  rw [Int.sub_eq_add_neg, ← Int.mul_neg, Int.add_mul_ediv_left _ _ (Int.ne_of_gt hpi)]
  omega

theorem structPack_digits {v e f x b} (h : structPack v e f x = .ok b) : IsDigits f.size e x b := by
  have hl := structPack_length h
  refine ⟨hl, fun i hi => ?_⟩
  have hb : b = e.order (leBytes f.size (x % (2 ^ (8 * f.size) : Nat)).toNat) := by
    unfold structPack at h
    simp only at h
    split at h
    · cases h; rfl
    · split at h
      · cases h
      · split at h
        · cases h
        · cases h; rfl
  subst hb
  cases e with
  | little =>
    simp only [Endian.order]
    rw [leBytes_getElem? hi, int_digit _ _ _ hi]
  | big =>
    simp only [Endian.order]
    rw [List.getElem?_reverse (by rw [leBytes_length]; omega), leBytes_length,
      show f.size - 1 - (f.size - 1 - i) = i by omega, leBytes_getElem? hi, int_digit _ _ _ hi]

theorem slice_append {α : Type} (pre b post : List α) (n : Nat) (h : b.length = n) :
    slice (pre ++ b ++ post) pre.length (pre.length + n) = b := by
  subst h
  simp [slice, List.append_assoc]

end Pyogp
