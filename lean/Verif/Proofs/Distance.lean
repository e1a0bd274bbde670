import Verif.Proofs.IeeeRange
import Verif.Model.Distance
import Verif.Spec.Distance

/-! # `Vector3.dist_squared` -/

namespace Pyogp
open Spec

theorem roundBits_le (N k : Nat) : roundBits N k ≤ 2047 * 2 ^ 52 := by
  rw [roundBits_raw]; split <;> omega

/-- The bits of the result, overflow included. -/
theorem ofUnits_all (i : Int) (k : Nat) :
    (F64.ofUnits i k).toNat = (if i < 0 then 1 else 0) * 2 ^ 63 + roundBits i.natAbs k ∧
    (F64.ofUnits i k).units = if i < 0 then -(umag (roundBits i.natAbs k) : Int) else umag (roundBits i.natAbs k) := by
  have hb := roundBits_le i.natAbs k
  have hn : (F64.ofUnits i k).toNat = (if i < 0 then 1 else 0) * 2 ^ 63 + roundBits i.natAbs k := by
    unfold F64.ofUnits
    rw [BitVec.toNat_ofNat, Nat.mod_eq_of_lt]
    · by_cases hi : i < 0 <;> simp [hi]
    · by_cases hi : i < 0 <;> simp only [hi, if_true, if_false] <;> omega
  refine ⟨hn, ?_⟩
  rw [units_eq, hn, mag64_umag (by omega)]
  unfold neg64
  generalize roundBits i.natAbs k = b at *
  by_cases hi : i < 0
  · have : (1 * 2 ^ 63 + b) / 2 ^ 63 % 2 = 1 := by omega
    simp only [hi, if_true, this, decide_true]
  · have : (0 * 2 ^ 63 + b) / 2 ^ 63 % 2 ≠ 1 := by omega
    simp only [hi, if_false, this, decide_false, Bool.false_eq_true]

theorem units_natAbs (i : Int) (k : Nat) : (F64.ofUnits i k).units.natAbs = umag (roundBits i.natAbs k) := by
  rw [(ofUnits_all i k).2]; split <;> simp

/-- A square does not see the sign. -/
theorem sq_sub_comm (a b : F64) : F64.mul (F64.sub a b) (F64.sub a b) = F64.mul (F64.sub b a) (F64.sub b a) := by
  have h : (F64.sub a b).units.natAbs = (F64.sub b a).units.natAbs := by
    unfold F64.sub
    rw [units_natAbs, units_natAbs, show (b.units - a.units).natAbs = (a.units - b.units).natAbs by omega]
  unfold F64.mul
  rw [← Int.natAbs_mul_self' (F64.sub a b).units, h, Int.natAbs_mul_self']

theorem units_mul_nonneg (x : F64) : 0 ≤ (F64.mul x x).units := by
  unfold F64.mul
  rw [(ofUnits_all _ _).2, if_neg (by have := mul_self_nonneg x.units; omega)]
  exact Int.natCast_nonneg _

theorem add_nonneg_bits {x y : F64} (hx : 0 ≤ x.units) (hy : 0 ≤ y.units) : (F64.add x y).toNat ≤ 2047 * 2 ^ 52 ∧ 0 ≤ (F64.add x y).units := by
  unfold F64.add
  have h := ofUnits_all (x.units + y.units) 0
  rw [if_neg (by omega), if_neg (by omega)] at h
  have := roundBits_le (x.units + y.units).natAbs 0
  constructor
  · rw [h.1]; omega
  · rw [h.2]; exact Int.natCast_nonneg _

/-- Sums and differences have no absolute error. -/
theorem ofUnits_rel (i : Int) {c : Nat} (hc : c = 1074) (h : i.natAbs < (2 ^ 54 - 1) * 2 ^ (0 + 2044)) :
    |realOf (F64.ofUnits i 0) - (i : ℝ) / 2 ^ c| ≤ 3 / 2 * (1 / 2 ^ 53) * |(i : ℝ) / 2 ^ c| := by
  by_cases hs : i.natAbs < 2 ^ 53
  · have e : (F64.ofUnits i 0).units = i := by
      rw [(ofUnits_bits i 0 h).2.2.2]
      have : rawBits i.natAbs 0 = i.natAbs := by
        unfold rawBits
        by_cases h0 : i.natAbs = 0
        · rw [h0]; simp [roundShift]
        · have := (Nat.log2_lt h0).mpr hs
          rw [if_pos (by omega)]
          simp [roundShift, Nat.mod_one]
      rw [this, umag_small (by omega)]
      split <;> omega
    rw [realOf_units _ hc, e, sub_self, abs_zero]
    positivity
  · have h1 := ofUnits_err i 0 hc h
    rw [Nat.zero_add] at h1
    refine h1.trans ?_
    have hi : (2 : ℝ) ^ 53 ≤ |(i : ℝ)| := by
      have : ((2 ^ 53 : Nat) : ℝ) ≤ (i.natAbs : ℝ) := by exact_mod_cast Nat.le_of_not_lt hs
      rw [Nat.cast_natAbs] at this
      push_cast at this
      norm_num at this ⊢
      exact this
    have hp : (0 : ℝ) < 2 ^ c := by positivity
    have : (1 : ℝ) / 2 ^ (c + 1) ≤ 1 / 2 * (1 / 2 ^ 53) * |(i : ℝ) / 2 ^ c| := by
      rw [abs_div, abs_of_pos hp, pow_succ]
      rw [show (1 : ℝ) / (2 ^ c * 2) = 1 / 2 * (1 / 2 ^ 53) * (2 ^ 53 / 2 ^ c) by field_simp]
      gcongr
    linarith

theorem add_rel (x y : F64) (h : |realOf x + realOf y| ≤ 2 ^ 1023) :
    |realOf (x.add y) - (realOf x + realOf y)| ≤ 3 / 2 * (1 / 2 ^ 53) * |realOf x + realOf y| := by
  obtain ⟨c, hc⟩ : ∃ c, c = 1074 := ⟨_, rfl⟩
  have e : realOf x + realOf y = ((x.units + y.units : Int) : ℝ) / 2 ^ c := by
    rw [realOf_units x hc, realOf_units y hc, ← add_div]
    push_cast
    rfl
  rw [e] at h ⊢
  exact ofUnits_rel _ hc (limit_of_real hc (by rw [Nat.zero_add]; exact h))

theorem sub_rel (x y : F64) (h : |realOf x - realOf y| ≤ 2 ^ 1023) :
    |realOf (x.sub y) - (realOf x - realOf y)| ≤ 3 / 2 * (1 / 2 ^ 53) * |realOf x - realOf y| := by
  obtain ⟨c, hc⟩ : ∃ c, c = 1074 := ⟨_, rfl⟩
  have e : realOf x - realOf y = ((x.units - y.units : Int) : ℝ) / 2 ^ c := by
    rw [realOf_units x hc, realOf_units y hc, ← sub_div]
    push_cast
    rfl
  rw [e] at h ⊢
  exact ofUnits_rel _ hc (limit_of_real hc (by rw [Nat.zero_add]; exact h))

/-- One coordinate: the difference and its square. -/
theorem square_error {ε η d x p : ℝ} (h0 : 0 ≤ ε) (h1 : ε ≤ 1 / 1024) (hx : |x - d| ≤ 3 / 2 * ε * |d|) (hp : |p - x * x| ≤ ε * |x * x| + η) :
    |p - d ^ 2| ≤ 42 / 10 * (ε * d ^ 2) + η := by
  have hd : 0 ≤ |d| := abs_nonneg d
  have hxx : |x * x - d ^ 2| ≤ 31 / 10 * (ε * d ^ 2) := by
    have e : x * x - d ^ 2 = (x - d) * (x - d) + 2 * d * (x - d) := by ring
    rw [e]
    have h2 : |(x - d) * (x - d)| ≤ (3 / 2 * ε * |d|) * (3 / 2 * ε * |d|) := by
      rw [abs_mul]; gcongr
    have h3 : |2 * d * (x - d)| ≤ 2 * |d| * (3 / 2 * ε * |d|) := by
      rw [abs_mul, abs_mul, abs_two]; gcongr
    have h4 := abs_add_le ((x - d) * (x - d)) (2 * d * (x - d))
    have hq : |d| * |d| = d ^ 2 := by rw [← abs_mul, ← sq, abs_of_nonneg (sq_nonneg d)]
    have e2 : (3 / 2 * ε * |d|) * (3 / 2 * ε * |d|) = 9 / 4 * ε * (ε * (|d| * |d|)) := by ring
    have e3 : 2 * |d| * (3 / 2 * ε * |d|) = 3 * (ε * (|d| * |d|)) := by ring
    rw [e2, hq] at h2
    rw [e3, hq] at h3
    have h5 : 0 ≤ ε * d ^ 2 := by positivity
    have h6 : ε * (ε * d ^ 2) ≤ 1 / 1024 * (ε * d ^ 2) := mul_le_mul_of_nonneg_right h1 h5
    have h7 : 9 / 4 * ε * (ε * d ^ 2) = 9 / 4 * (ε * (ε * d ^ 2)) := by ring
    linarith
  have hx0 : |x * x| = x * x := abs_of_nonneg (mul_self_nonneg x)
  rw [hx0] at hp
  have h5 : 0 ≤ ε * d ^ 2 := by positivity
  have h6 : ε * (ε * d ^ 2) ≤ 1 / 1024 * (ε * d ^ 2) := mul_le_mul_of_nonneg_right h1 h5
  have h8 : x * x ≤ d ^ 2 + 31 / 10 * (ε * d ^ 2) := by linarith [(abs_le.mp hxx).2]
  have h9 : ε * (x * x) ≤ ε * (d ^ 2 + 31 / 10 * (ε * d ^ 2)) := mul_le_mul_of_nonneg_left h8 h0
  have h10 : ε * (d ^ 2 + 31 / 10 * (ε * d ^ 2)) = ε * d ^ 2 + 31 / 10 * (ε * (ε * d ^ 2)) := by ring
  have h11 : |p - d ^ 2| ≤ |p - x * x| + |x * x - d ^ 2| := by
    have := abs_add_le (p - x * x) (x * x - d ^ 2)
    rwa [show p - x * x + (x * x - d ^ 2) = p - d ^ 2 by ring] at this
  linarith

/-- The two sums. -/
theorem sum_error {ε η A B C p q r s t : ℝ} (h0 : 0 ≤ ε) (h1 : ε ≤ 1 / 1024) (hη : 0 ≤ η) (hA : 0 ≤ A) (hB : 0 ≤ B) (hC : 0 ≤ C)
    (hp : |p - A| ≤ 42 / 10 * (ε * A) + η) (hq : |q - B| ≤ 42 / 10 * (ε * B) + η) (hr : |r - C| ≤ 42 / 10 * (ε * C) + η)
    (hs : |s - (p + q)| ≤ 3 / 2 * ε * |p + q|) (ht : |t - (s + r)| ≤ 3 / 2 * ε * |s + r|) :
    |t - (A + B + C)| ≤ 8 * ε * (A + B + C) + 4 * η := by
  rw [abs_le] at hp hq hr
  have step : ∀ {u S k m : ℝ}, |u - S| ≤ k * (ε * S) + m * η → 0 ≤ S → 0 ≤ k → k ≤ 6 → 0 ≤ m → m ≤ 4 →
      3 / 2 * ε * |u| ≤ 151 / 100 * (ε * S) + 1 / 100 * η := by
    intro u S k m hu hS hk hk6 hm hm4
    have hu' : |u| ≤ S + (k * (ε * S) + m * η) := by
      have := abs_add_le (u - S) S
      rw [sub_add_cancel, abs_of_nonneg hS] at this
      linarith
    have hεS : 0 ≤ ε * S := by positivity
    have h2 : ε * |u| ≤ ε * (S + (k * (ε * S) + m * η)) := mul_le_mul_of_nonneg_left hu' h0
    have h3 : ε * (k * (ε * S)) ≤ 1 / 1024 * (6 * (ε * S)) := by gcongr
    have h4 : ε * (m * η) ≤ 1 / 1024 * (4 * η) := by gcongr
    have h5 : ε * (S + (k * (ε * S) + m * η)) = ε * S + ε * (k * (ε * S)) + ε * (m * η) := by ring
    linarith
  have hεA : 0 ≤ ε * A := by positivity
  have hεB : 0 ≤ ε * B := by positivity
  have hεC : 0 ≤ ε * C := by positivity
  have hpq : |p + q - (A + B)| ≤ 42 / 10 * (ε * (A + B)) + 2 * η := by
    rw [abs_le, mul_add]; constructor <;> linarith
  have e1 := step hpq (by linarith) (by norm_num) (by norm_num) (by norm_num) (by norm_num)
  have hs' := abs_le.mp (hs.trans e1)
  have hpq' := abs_le.mp hpq
  have hs2 : |s - (A + B)| ≤ 572 / 100 * (ε * (A + B)) + 201 / 100 * η := by
    rw [mul_add] at *
    rw [abs_le]; constructor <;> linarith
  have hsr : |s + r - (A + B + C)| ≤ 572 / 100 * (ε * (A + B + C)) + 301 / 100 * η := by
    have := abs_le.mp hs2
    have e : ε * (A + B + C) = ε * (A + B) + ε * C := by ring
    rw [e, abs_le]
    constructor <;> linarith
  have e2 := step hsr (by linarith) (by norm_num) (by norm_num) (by norm_num) (by norm_num)
  have ht' := abs_le.mp (ht.trans e2)
  have hsr' := abs_le.mp hsr
  have e : 8 * ε * (A + B + C) = 8 * (ε * (A + B + C)) := by ring
  have hD : 0 ≤ ε * (A + B + C) := by positivity
  rw [e, abs_le]
  constructor <;> linarith

end Pyogp

namespace Pyogp
open Spec

theorem rawBits_mono {N M : Nat} (k : Nat) (h : N ≤ M) : rawBits N k ≤ rawBits M k := by
  have h1 := rawBits_nearest N k
  have h2 := rawBits_nearest M k
  by_contra hc
  have hlt : rawBits M k < rawBits N k := Nat.lt_of_not_le hc
  have hu : umag (rawBits M k) * 2 ^ k < umag (rawBits N k) * 2 ^ k := Nat.mul_lt_mul_of_pos_right (umag_lt hlt) (Nat.two_pow_pos k)
  have a1 := (h1 (rawBits M k)).1
  have a2 := (h2 (rawBits N k)).1
  have e : N = M := by
    unfold Spec.dist at a1 a2
    simp only at a1 a2
    omega
  rw [e] at hlt
  exact Nat.lt_irrefl _ hlt

theorem roundBits_mono {N M : Nat} (k : Nat) (h : N ≤ M) : roundBits N k ≤ roundBits M k := by
  have := rawBits_mono k h
  rw [roundBits_raw, roundBits_raw]
  split <;> split <;> omega

/-- One coordinate. -/
theorem square_mono {a b c d : F64} (h : (a.units - b.units).natAbs ≤ (c.units - d.units).natAbs) :
    (F64.mul (F64.sub a b) (F64.sub a b)).units ≤ (F64.mul (F64.sub c d) (F64.sub c d)).units := by
  have h1 : (F64.sub a b).units.natAbs ≤ (F64.sub c d).units.natAbs := by
    unfold F64.sub
    rw [units_natAbs, units_natAbs]
    exact umag_mono (roundBits_mono 0 h)
  have h2 : ((F64.sub a b).units * (F64.sub a b).units).natAbs ≤ ((F64.sub c d).units * (F64.sub c d).units).natAbs := by
    rw [Int.natAbs_mul, Int.natAbs_mul]
    exact Nat.mul_le_mul h1 h1
  have n1 := mul_self_nonneg (F64.sub a b).units
  have n2 := mul_self_nonneg (F64.sub c d).units
  unfold F64.mul
  rw [(ofUnits_all _ _).2, (ofUnits_all _ _).2, if_neg (by omega), if_neg (by omega)]
  exact_mod_cast umag_mono (roundBits_mono 1074 h2)

theorem add_mono {x y x' y' : F64} (hx : 0 ≤ x.units) (hy : 0 ≤ y.units) (h1 : x.units ≤ x'.units) (h2 : y.units ≤ y'.units) :
    (F64.add x y).toNat ≤ (F64.add x' y').toNat ∧ (F64.add x y).units ≤ (F64.add x' y').units := by
  unfold F64.add
  have := roundBits_mono (N := (x.units + y.units).natAbs) (M := (x'.units + y'.units).natAbs) 0 (by omega)
  rw [(ofUnits_all _ _).1, (ofUnits_all _ _).1, (ofUnits_all _ _).2, (ofUnits_all _ _).2, if_neg (by omega), if_neg (by omega), if_neg (by omega), if_neg (by omega)]
  refine ⟨by omega, ?_⟩
  exact_mod_cast umag_mono this

theorem natAbs_of_real {a b c d : F64} (h : |realOf a - realOf b| ≤ |realOf c - realOf d|) : (a.units - b.units).natAbs ≤ (c.units - d.units).natAbs := by
  obtain ⟨k, hk⟩ : ∃ k, k = 1074 := ⟨_, rfl⟩
  rw [realOf_units a hk, realOf_units b hk, realOf_units c hk, realOf_units d hk, ← sub_div, ← sub_div, abs_div, abs_div] at h
  have hp : (0 : ℝ) < |(2 : ℝ) ^ k| := by positivity
  rw [div_le_div_iff_of_pos_right hp] at h
  have : ((a.units - b.units).natAbs : ℝ) ≤ ((c.units - d.units).natAbs : ℝ) := by
    rw [Nat.cast_natAbs, Nat.cast_natAbs]
    push_cast
    exact h
  exact_mod_cast this

end Pyogp
