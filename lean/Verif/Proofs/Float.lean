import Verif.Model.Float
import Verif.Proofs.Struct
import Verif.Spec.Ieee

namespace Pyogp

open Spec

theorem roundShift_exact (q sh : Nat) : roundShift (q * 2 ^ sh) sh = q := by
  unfold roundShift
  simp only [Nat.mul_mod_left, Nat.mul_div_cancel _ (Nat.two_pow_pos sh)]
  rw [if_neg]
  have := Nat.two_pow_pos sh
  omega

theorem widenBits_lt {f : Nat} (hf : f < 2 ^ 32) : widenBits f < 2 ^ 64 := by
  unfold widenBits
  simp only
  split
  · split <;> omega
  · split
    · split
      · omega
      · rename_i h
        have hm : f % 2 ^ 23 < 2 ^ 23 := Nat.mod_lt _ (by decide)
        generalize f % 2 ^ 23 = m at *
        have h1 := Nat.log2_self_le h
        have h2 := (Nat.log2_lt h).mpr hm
        have h3 := @Nat.lt_log2_self m
        generalize Nat.log2 m = k at *
        have h4 : (m - 2 ^ k) * 2 ^ (52 - k) < 2 ^ k * 2 ^ (52 - k) := by
          apply Nat.mul_lt_mul_of_pos_right _ (Nat.two_pow_pos _)
          rw [Nat.pow_succ] at h3; omega
        rw [← Nat.pow_add, show k + (52 - k) = 52 by omega] at h4
        omega
    · omega

theorem narrow_widen {f : Nat} (hf : f < 2 ^ 32) (hn : ¬ isNaN32 f) : narrowBits (widenBits f) = some f := by
  unfold isNaN32 at hn
  unfold widenBits
  simp only
  split
  · rename_i he
    have hm : f % 2 ^ 23 = 0 := by omega
    rw [if_pos hm]
    unfold narrowBits
    simp only
    rw [if_pos (by omega), if_pos (by omega)]
    congr 1
    omega
  · split
    · split
      · unfold narrowBits
        simp only
        rw [if_neg (by omega), if_pos (by omega)]
        congr 1
        omega
      · rename_i he0 h
        have hm : f % 2 ^ 23 < 2 ^ 23 := Nat.mod_lt _ (by decide)
        have hfm : f = f / 2 ^ 31 * 2 ^ 31 + f % 2 ^ 23 := by omega
        have hs : f / 2 ^ 31 < 2 := by omega
        generalize f % 2 ^ 23 = m at *
        generalize f / 2 ^ 31 = s at *
        have h1 := Nat.log2_self_le h
        have h2 := (Nat.log2_lt h).mpr hm
        have h3 := @Nat.lt_log2_self m
        generalize Nat.log2 m = k at *
        have h4 : (m - 2 ^ k) * 2 ^ (52 - k) < 2 ^ k * 2 ^ (52 - k) := by
          apply Nat.mul_lt_mul_of_pos_right _ (Nat.two_pow_pos _)
          rw [Nat.pow_succ] at h3; omega
        have h5 : 2 ^ k * 2 ^ (52 - k) = 2 ^ 52 := by
          rw [← Nat.pow_add, show k + (52 - k) = 52 by omega]
        have h6 : 2 ^ 52 + (m - 2 ^ k) * 2 ^ (52 - k) = m * 2 ^ (52 - k) := by
          rw [← h5, ← Nat.add_mul]
          congr 1
          omega
        have h7 : 29 + (897 - (k + 874)) = 52 - k := by omega
        rw [h5] at h4
        generalize hM : (m - 2 ^ k) * 2 ^ (52 - k) = M at *
        have e1 : (s * 2 ^ 63 + (k + 874) * 2 ^ 52 + M) / 2 ^ 63 = s := by omega
        have e2 : (s * 2 ^ 63 + (k + 874) * 2 ^ 52 + M) / 2 ^ 52 % 2 ^ 11 = k + 874 := by omega
        have e3 : (s * 2 ^ 63 + (k + 874) * 2 ^ 52 + M) % 2 ^ 52 = M := by omega
        unfold narrowBits
        simp only [e1, e2, e3]
        have c1 : ¬ (k + 874 = 2047) := by omega
        have c2 : ¬ (k + 874 = 0) := by omega
        have c3 : ¬ (897 ≤ k + 874) := by omega
        have c4 : ¬ (255 * 2 ^ 23 ≤ m) := by clear hfm h4 h5 h6 hM e1 e2 e3; omega
        simp only [if_neg c1, if_neg c2, if_neg c3, h7, h6, roundShift_exact, if_neg c4]
        exact congrArg some hfm.symm
    · rename_i h1 h2
      have hm : f % 2 ^ 23 < 2 ^ 23 := Nat.mod_lt _ (by decide)
      have he : f / 2 ^ 23 % 2 ^ 8 < 2 ^ 8 := Nat.mod_lt _ (by decide)
      have hfm : f = f / 2 ^ 31 * 2 ^ 31 + f / 2 ^ 23 % 2 ^ 8 * 2 ^ 23 + f % 2 ^ 23 := by omega
      have hs : f / 2 ^ 31 < 2 := by omega
      generalize f % 2 ^ 23 = m at *
      generalize f / 2 ^ 31 = s at *
      generalize f / 2 ^ 23 % 2 ^ 8 = e at *
      have e1 : (s * 2 ^ 63 + (e + 896) * 2 ^ 52 + m * 2 ^ 29) / 2 ^ 63 = s := by omega
      have e2 : (s * 2 ^ 63 + (e + 896) * 2 ^ 52 + m * 2 ^ 29) / 2 ^ 52 % 2 ^ 11 = e + 896 := by omega
      have e3 : (s * 2 ^ 63 + (e + 896) * 2 ^ 52 + m * 2 ^ 29) % 2 ^ 52 = m * 2 ^ 29 := by omega
      have h6 : 2 ^ 52 + m * 2 ^ 29 = (2 ^ 23 + m) * 2 ^ 29 := by omega
      unfold narrowBits
      simp only [e1, e2, e3]
      rw [if_neg (by omega), if_neg (by omega), if_pos (by omega : 897 ≤ e + 896), h6, roundShift_exact,
          if_neg (by omega)]
      congr 1
      omega

theorem narrowBits_lt {d n : Nat} (hd : d < 2 ^ 64) (h : narrowBits d = some n) : n < 2 ^ 32 := by
  unfold narrowBits at h
  simp only at h
  repeat' split at h
  all_goals first
    | (cases h; omega)
    | cases h

theorem packF64_unpackF64 (en : Endian) (b : Bytes) (h : b.length = 8) :
    ∃ x, unpackF64 en b = .ok x ∧ packF64 en x = .ok b := by
  refine ⟨_, by unfold unpackF64; rw [if_pos h], ?_⟩
  have hl := leVal_lt (en.order b)
  rw [order_length, h] at hl
  unfold packF64
  rw [BitVec.toNat_ofNat, Nat.mod_eq_of_lt (by simpa using hl), leBytes_leVal_of_length (by simp [h]), order_order]

theorem unpackF64_packF64 (en : Endian) (x : F64) :
    ∃ b, packF64 en x = .ok b ∧ b.length = 8 ∧ unpackF64 en b = .ok x := by
  refine ⟨_, rfl, by simp, ?_⟩
  unfold unpackF64
  rw [if_pos (by simp), order_order, leVal_leBytes]
  have := x.isLt
  congr 1
  apply BitVec.eq_of_toNat_eq
  simp only [BitVec.toNat_ofNat]
  omega

theorem packF32_unpackF32 (en : Endian) (b : Bytes) (h : b.length = 4) (hn : ¬ isNaN32 (leVal (en.order b))) :
    ∃ x, unpackF32 en b = .ok x ∧ packF32 en x = .ok b := by
  refine ⟨_, by unfold unpackF32; rw [if_pos h], ?_⟩
  have hl := leVal_lt (en.order b)
  rw [order_length, h] at hl
  unfold packF32
  rw [BitVec.toNat_ofNat, Nat.mod_eq_of_lt (widenBits_lt (by simpa using hl)), narrow_widen (by simpa using hl) hn]
  simp only [leBytes_leVal_of_length (show (en.order b).length = 4 by simp [h]), order_order]

theorem packF32_length {en x b} (h : packF32 en x = .ok b) : b.length = 4 := by
  unfold packF32 at h
  split at h <;> cases h
  simp

end Pyogp
