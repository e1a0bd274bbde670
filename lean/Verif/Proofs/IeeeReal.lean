import Verif.Proofs.IeeeOps
import Verif.Spec.IeeeReal
import Verif.Spec.Field
import Mathlib.Analysis.SpecialFunctions.Sqrt
import Mathlib.Tactic.Linarith
import Mathlib.Tactic.FieldSimp
import Mathlib.Tactic.Ring
import Mathlib.Tactic.Positivity

/-! # Rounding errors of the operations on bit patterns, as real numbers -/

namespace Pyogp
open Spec

theorem realOf_units (x : F64) {c : Nat} (hc : c = 1074) : realOf x = (x.units : ℝ) / 2 ^ c := by
  unfold realOf
  rw [hc, units_eq]
  by_cases h : neg64 x.toNat = true
  · rw [if_pos h, if_pos h]; push_cast; rfl
  · rw [if_neg h, if_neg h]; push_cast; rfl

theorem log2_le_of_real {i : Int} {k c : Nat} (hc : c = 1074) (h : |(i : ℝ)| / 2 ^ (k + c) ≤ 4) : Nat.log2 i.natAbs ≤ k + 1076 := by
  rw [div_le_iff₀ (by positivity)] at h
  have h1 : (i.natAbs : ℝ) ≤ ((2 ^ (k + c + 2) : Nat) : ℝ) := by
    rw [Nat.cast_natAbs]
    push_cast
    refine h.trans (le_of_eq ?_)
    ring
  have h2 : i.natAbs ≤ 2 ^ (k + c + 2) := by exact_mod_cast h1
  by_cases h0 : i.natAbs = 0
  · rw [h0]; simp
  · have : i.natAbs < 2 ^ (k + c + 3) := Nat.lt_of_le_of_lt h2 (Nat.pow_lt_pow_right (by decide) (by omega))
    have := (Nat.log2_lt h0).mpr this
    omega

theorem ofUnits_real (i : Int) (k : Nat) {c : Nat} (hc : c = 1074) (h : |(i : ℝ) / 2 ^ (k + c)| ≤ 4) :
    IsFinite (F64.ofUnits i k) ∧ (0 ≤ i → 0 ≤ realOf (F64.ofUnits i k)) ∧ |realOf (F64.ofUnits i k) - (i : ℝ) / 2 ^ (k + c)| ≤ 1 / 2 ^ 51 := by
  have h' : |(i : ℝ)| / 2 ^ (k + c) ≤ 4 := by
    rw [abs_div, abs_of_pos (by positivity : (0 : ℝ) < 2 ^ (k + c))] at h
    exact h
  obtain ⟨h1, h2, -, h3, h4⟩ := ofUnits_close i k (log2_le_of_real hc h')
  rw [realOf_units _ hc]
  refine ⟨h1, ?_, ?_⟩
  · intro h0
    have : (0 : ℝ) ≤ ((F64.ofUnits i k).units : ℝ) := by exact_mod_cast h2 h0
    positivity
  · generalize (F64.ofUnits i k).units = u at *
    rw [show k + 1024 = k + c - 50 by omega] at h3 h4
    obtain ⟨b, rfl⟩ : ∃ b, c = b + 50 := ⟨c - 50, by omega⟩
    rw [show k + (b + 50) - 50 = k + b by omega] at h3 h4
    have h3' : 2 * ((u : ℝ) * 2 ^ k) ≤ 2 * (i : ℝ) + 2 ^ (k + b) := by exact_mod_cast h3
    have h4' : 2 * (i : ℝ) ≤ 2 * ((u : ℝ) * 2 ^ k) + 2 ^ (k + b) := by exact_mod_cast h4
    have e : (u : ℝ) / 2 ^ (b + 50) - (i : ℝ) / 2 ^ (k + (b + 50)) = ((u : ℝ) * 2 ^ k - i) / 2 ^ (k + (b + 50)) := by
      rw [pow_add 2 k]
      field_simp
    rw [e, abs_div, abs_of_pos (by positivity : (0 : ℝ) < 2 ^ (k + (b + 50))), div_le_div_iff₀ (by positivity) (by positivity), one_mul]
    have e2 : (2 : ℝ) ^ (k + (b + 50)) = 2 ^ (k + b) * 2 ^ 50 := by rw [← add_assoc, pow_add 2 (k + b)]
    rw [e2]
    have h5 : |(u : ℝ) * 2 ^ k - i| ≤ 2 ^ (k + b) / 2 := by
      rw [abs_le]
      constructor <;> linarith
    generalize (2 : ℝ) ^ (k + b) = P at *
    generalize |(u : ℝ) * 2 ^ k - i| = a at *
    linarith

theorem mul_real (x y : F64) (h : |realOf x * realOf y| ≤ 4) :
    IsFinite (x.mul y) ∧ |realOf (x.mul y) - realOf x * realOf y| ≤ 1 / 2 ^ 51 := by
  obtain ⟨c, hc⟩ : ∃ c, c = 1074 := ⟨_, rfl⟩
  have e : realOf x * realOf y = ((x.units * y.units : Int) : ℝ) / 2 ^ (1074 + c) := by
    rw [realOf_units x rfl, realOf_units y hc, pow_add, div_mul_div_comm]
    push_cast
    rfl
  rw [e] at h ⊢
  have := ofUnits_real (x.units * y.units) 1074 hc h
  exact ⟨this.1, this.2.2⟩

theorem add_real (x y : F64) (h : |realOf x + realOf y| ≤ 4) :
    IsFinite (x.add y) ∧ |realOf (x.add y) - (realOf x + realOf y)| ≤ 1 / 2 ^ 51 := by
  obtain ⟨c, hc⟩ : ∃ c, c = 1074 := ⟨_, rfl⟩
  have e : realOf x + realOf y = ((x.units + y.units : Int) : ℝ) / 2 ^ (0 + c) := by
    rw [realOf_units x hc, realOf_units y hc, zero_add, ← add_div]
    push_cast
    rfl
  rw [e] at h ⊢
  have := ofUnits_real (x.units + y.units) 0 hc h
  exact ⟨this.1, this.2.2⟩

theorem sub_real (x y : F64) (h : |realOf x - realOf y| ≤ 4) :
    IsFinite (x.sub y) ∧ |realOf (x.sub y) - (realOf x - realOf y)| ≤ 1 / 2 ^ 51 := by
  obtain ⟨c, hc⟩ : ∃ c, c = 1074 := ⟨_, rfl⟩
  have e : realOf x - realOf y = ((x.units - y.units : Int) : ℝ) / 2 ^ (0 + c) := by
    rw [realOf_units x hc, realOf_units y hc, zero_add, ← sub_div]
    push_cast
    rfl
  rw [e] at h ⊢
  have := ofUnits_real (x.units - y.units) 0 hc h
  exact ⟨this.1, this.2.2⟩

theorem sqrt_sticky (n : Nat) : |((2 * Nat.sqrt n + (if Nat.sqrt n * Nat.sqrt n = n then 0 else 1) : Nat) : ℝ) - 2 * Real.sqrt n| ≤ 1 := by
  have h1 : ((Nat.sqrt n : Nat) : ℝ) ≤ Real.sqrt n := Real.nat_sqrt_le_real_sqrt
  have h2 : Real.sqrt n ≤ (Nat.sqrt n : ℝ) + 1 := Real.real_sqrt_le_nat_sqrt_succ
  by_cases h : Nat.sqrt n * Nat.sqrt n = n
  · rw [if_pos h]
    have h3 : Real.sqrt n = Nat.sqrt n := by
      have : (n : ℝ) = (Nat.sqrt n : ℝ) * Nat.sqrt n := by exact_mod_cast h.symm
      rw [this, Real.sqrt_mul_self (by positivity)]
    rw [h3]
    push_cast
    simp
  · rw [if_neg h]
    push_cast
    rw [abs_le]
    constructor <;> linarith

theorem sqrt_real (x : F64) (h0 : 0 < realOf x) (h1 : realOf x ≤ 25 / 16) :
    IsFinite x.sqrt ∧ 0 ≤ realOf x.sqrt ∧ |realOf x.sqrt - Real.sqrt (realOf x)| ≤ 1 / 2 ^ 50 := by
  obtain ⟨c, hc⟩ : ∃ c, c = 1074 := ⟨_, rfl⟩
  have hx := realOf_units x hc
  have hu : 0 < (x.units : ℝ) := by
    rw [hx] at h0
    by_contra hn
    have : (x.units : ℝ) / 2 ^ c ≤ 0 := div_nonpos_of_nonpos_of_nonneg (by linarith) (by positivity)
    linarith
  have hu' : 0 < x.units := by exact_mod_cast hu
  have hn : ((x.units.toNat * 2 ^ (c + 120) : Nat) : ℝ) = realOf x * (2 ^ (c + 60)) ^ 2 := by
    have : ((x.units.toNat : Nat) : ℝ) = (x.units : ℝ) := by
      have : ((x.units.toNat : Nat) : Int) = x.units := Int.toNat_of_nonneg hu'.le
      exact_mod_cast congrArg (Int.cast : Int → ℝ) this
    rw [Nat.cast_mul, this, hx, ← pow_mul, show (c + 60) * 2 = c + (c + 120) by omega, pow_add 2 c (c + 120)]
    push_cast
    field_simp
  have hsq : Real.sqrt ((x.units.toNat * 2 ^ (c + 120) : Nat) : ℝ) = Real.sqrt (realOf x) * 2 ^ (c + 60) := by
    rw [hn, Real.sqrt_mul h0.le, Real.sqrt_sq (by positivity)]
  have hst := sqrt_sticky (x.units.toNat * 2 ^ (c + 120))
  rw [hsq] at hst
  have hdef : x.sqrt = F64.ofUnits ((2 * Nat.sqrt (x.units.toNat * 2 ^ (c + 120)) + (if Nat.sqrt (x.units.toNat * 2 ^ (c + 120)) *
      Nat.sqrt (x.units.toNat * 2 ^ (c + 120)) = x.units.toNat * 2 ^ (c + 120) then 0 else 1) : Nat) : Int) 61 := by
    rw [hc]; rfl
  rw [hdef]
  generalize (2 * Nat.sqrt (x.units.toNat * 2 ^ (c + 120)) + (if Nat.sqrt (x.units.toNat * 2 ^ (c + 120)) *
      Nat.sqrt (x.units.toNat * 2 ^ (c + 120)) = x.units.toNat * 2 ^ (c + 120) then 0 else 1) : Nat) = I at *
  have hs1 : Real.sqrt (realOf x) ≤ 5 / 4 := by
    rw [Real.sqrt_le_left (by norm_num)]
    norm_num
    exact h1
  have hs0 := Real.sqrt_nonneg (realOf x)
  generalize Real.sqrt (realOf x) = s at *
  have hI : |((I : Int) : ℝ) / 2 ^ (61 + c) - s| ≤ 1 / 2 ^ 61 := by
    have e : ((I : Int) : ℝ) / 2 ^ (61 + c) - s = ((I : ℝ) - 2 * (s * 2 ^ (c + 60))) / 2 ^ (61 + c) := by
      rw [show 61 + c = c + 60 + 1 by omega, pow_succ]
      push_cast
      field_simp
    rw [e, abs_div, abs_of_pos (by positivity : (0 : ℝ) < 2 ^ (61 + c)), div_le_div_iff₀ (by positivity) (by positivity), one_mul]
    have e2 : (2 : ℝ) ^ (61 + c) = 2 ^ 61 * 2 ^ c := pow_add 2 61 c
    rw [e2]
    have h2c : (1 : ℝ) ≤ 2 ^ c := one_le_pow₀ (by norm_num)
    have := abs_nonneg ((I : ℝ) - 2 * (s * 2 ^ (c + 60)))
    generalize |(I : ℝ) - 2 * (s * 2 ^ (c + 60))| = a at *
    linarith
  have hI' := abs_le.mp hI
  obtain ⟨f1, f2, f3⟩ := ofUnits_real (I : Int) 61 hc (by rw [abs_le]; constructor <;> linarith)
  refine ⟨f1, f2 (Int.natCast_nonneg I), ?_⟩
  have f3' := abs_le.mp f3
  rw [abs_le]
  constructor <;> linarith

end Pyogp
