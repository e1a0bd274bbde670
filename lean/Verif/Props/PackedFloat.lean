import Verif.Proofs.IeeeRange
import Verif.Props.Helpers

/-!
# C46 on doubles

What `packed_u16_to_float` and `packed_u8_to_float` compute with Python floats: every operation rounds to the nearest double.
-/

namespace Pyogp
open Spec

/-- The accumulated rounding error that the theorems allow. -/
noncomputable def tolerance (lower upper : ℝ) : ℝ := 8 / 2 ^ 53 * (|lower| + |upper|) + 1 / 2 ^ 1072

/-- `x` is, up to rounding, the point `pt` of the range, except that a point closer than `step` to zero gives zero. -/
def DecodedTo (pt step tol : ℝ) (x : F64) : Prop :=
  IsFinite x ∧ (step + tol ≤ |pt| → |realOf x - pt| ≤ tol) ∧ (|pt| + tol < step → realOf x = 0) ∧ (realOf x = 0 ∧ |pt| < step + tol ∨ |realOf x - pt| ≤ tol)

theorem rangeF64_decoded (oo : F64) (max : Nat) (u : Nat) (lower upper : F64) (hmax : 5 ≤ max) (hmax' : max ≤ 65535) (hu : u ≤ max)
    (hoo : |realOf oo - 1 / (max : ℝ)| ≤ 1 / 2 ^ 53 * (1 / max))
    (hlu : realOf lower ≤ realOf upper) (hL : |realOf lower| ≤ 2 ^ 1000) (hU : |realOf upper| ≤ 2 ^ 1000) :
    DecodedTo (rangePoint (max : ℝ) (realOf lower) (realOf upper) u) ((realOf upper - realOf lower) / max) (tolerance (realOf lower) (realOf upper))
      (rangeF64 oo u lower upper) := by
  obtain ⟨n, hn, hnr, b1, b3, b5, b6, b7⟩ := rangeF64_steps oo max u lower upper (by omega) hmax' hu hoo hL hU
  rw [rangeF64_eq hn]
  obtain ⟨c, hc⟩ : ∃ c, c = 1074 := ⟨_, rfl⟩
  have e1 := mul_err n oo b1 hc
  have e3 := sub_err upper lower b3 hc
  have e5 := mul_err _ _ b5 hc
  have e6 := add_err _ _ b6 hc
  have e7 := mul_err _ _ b7 hc
  have fin := (add_nearest _ _ b6).1
  clear b1 b3 b5 b6 b7 hL hU
  have htol : tolerance (realOf lower) (realOf upper) = 8 * (1 / 2 ^ 53) * (|realOf lower| + |realOf upper|) + 8 * (1 / 2 ^ (c + 1)) := by
    unfold tolerance
    rw [show (2 : ℝ) ^ (c + 1) = 8 * 2 ^ 1072 by rw [hc, show 1074 + 1 = 3 + 1072 by rfl, pow_add, show (2 : ℝ) ^ 3 = 8 by norm_num1]]
    have : (0 : ℝ) < 2 ^ 1072 := by positivity
    generalize (2 : ℝ) ^ 1072 = P at *
    field_simp
  rw [htol]
  rw [hnr] at e1
  have hη0 : (0 : ℝ) ≤ 1 / 2 ^ (c + 1) := by positivity
  have hη : (1 : ℝ) / 2 ^ (c + 1) ≤ 1 / 2 ^ 53 * (1 / 2 ^ 53) := by
    rw [one_div_mul_one_div, ← pow_add]
    exact one_div_le_one_div_of_le (by positivity) (pow_le_pow_right₀ (by norm_num) (by omega))
  generalize (1 : ℝ) / 2 ^ (c + 1) = η at *
  have hε0 : (0 : ℝ) ≤ 1 / 2 ^ 53 := by positivity
  have hε1 : (1 : ℝ) / 2 ^ 53 ≤ 1 / 64 := by norm_num
  generalize (1 : ℝ) / 2 ^ 53 = ε at *
  have hm5 : (5 : ℝ) ≤ max := by exact_mod_cast hmax
  have hu' : (u : ℝ) ≤ max := by exact_mod_cast hu
  have H1 := range_error ε η max u (realOf oo) (realOf lower) (realOf upper) _ _ _ _ hε0 hε1 hη0 hη (by linarith) (by positivity) hu' hlu hoo e1 e3 e5 e6
  have H2 := step_error ε η max (realOf oo) (realOf upper - realOf lower) _ _ hε0 hε1 hη0 (by linarith) (by linarith) hoo e3 e7
  have hpt : rangePoint (max : ℝ) (realOf lower) (realOf upper) u = realOf lower + u / max * (realOf upper - realOf lower) := rfl
  rw [← hpt] at H1
  generalize rangePoint (max : ℝ) (realOf lower) (realOf upper) u = pt at *
  have hS : realOf upper - realOf lower ≤ |realOf lower| + |realOf upper| := by
    have := neg_abs_le (realOf lower); have := le_abs_self (realOf upper); linarith
  have hstep0 : 0 ≤ (realOf upper - realOf lower) / max := div_nonneg (by linarith) (by linarith)
  have hstep : 5 * ((realOf upper - realOf lower) / max) ≤ |realOf lower| + |realOf upper| := by
    refine le_trans ?_ hS
    rw [mul_div_assoc', div_le_iff₀ (by linarith), mul_comm]
    exact mul_le_mul_of_nonneg_left hm5 (by linarith)
  generalize (realOf upper - realOf lower) / max = step at *
  generalize |realOf lower| + |realOf upper| = S at *
  have h5 := mul_le_mul_of_nonneg_left hstep hε0
  have e8 : ε * (5 * step) = 5 * ε * step := by ring
  have e9 : 7 * ε * S + ε * S = 8 * ε * S := by ring
  have hεS : 0 ≤ ε * S := mul_nonneg hε0 (by linarith)
  clear e1 e3 e5 e6 e7
  generalize ((n.mul oo).mul (upper.sub lower)).add lower = W at *
  generalize (upper.sub lower).mul oo = m at *
  have A1 := abs_sub_abs_le_abs_sub (realOf W) pt
  have A2 := abs_sub_abs_le_abs_sub pt (realOf W)
  rw [abs_sub_comm pt] at A2
  have A3 := abs_le.mp H2
  by_cases hs : |realOf W| < realOf m
  · rw [if_pos hs]
    have hpts : |pt| < step + (8 * ε * S + 8 * η) := by linarith
    refine ⟨finite_zero, fun h => ?_, fun _ => realOf_zero, .inl ⟨realOf_zero, hpts⟩⟩
    exact absurd hpts (not_lt.mpr h)
  · rw [if_neg hs]
    have hclose : |realOf W - pt| ≤ 8 * ε * S + 8 * η := by linarith
    refine ⟨fin, fun _ => hclose, fun h => ?_, .inr hclose⟩
    exact absurd hs (not_not.mpr (by linarith))

theorem rangeF64_mono (oo : F64) (max : Nat) (u u' : Nat) (lower upper : F64) (hmax : 1 ≤ max) (hmax' : max ≤ 65535) (hu' : u' ≤ max) (h : u ≤ u')
    (hoo : |realOf oo - 1 / (max : ℝ)| ≤ 1 / 2 ^ 53 * (1 / max))
    (hlu : realOf lower ≤ realOf upper) (hL : |realOf lower| ≤ 2 ^ 1000) (hU : |realOf upper| ≤ 2 ^ 1000) :
    realOf (rangeF64 oo u lower upper) ≤ realOf (rangeF64 oo u' lower upper) := by
  obtain ⟨n, hn, hnr, b1, b3, b5, b6, -⟩ := rangeF64_steps oo max u lower upper hmax hmax' (by omega) hoo hL hU
  obtain ⟨n', hn', hnr', b1', -, b5', b6', -⟩ := rangeF64_steps oo max u' lower upper hmax hmax' hu' hoo hL hU
  rw [rangeF64_eq hn, rangeF64_eq hn']
  have hz : Nearest 0 0 := by
    refine ⟨finite_zero, fun y _ => ?_⟩
    rw [realOf_zero, sub_self, abs_zero]
    exact ⟨abs_nonneg _, fun _ _ => by decide⟩
  have hm0 : (1 : ℝ) ≤ max := by exact_mod_cast hmax
  have hoo0 : 0 ≤ realOf oo := by
    have h1 := (abs_le.mp hoo).1
    have h2 : (0 : ℝ) ≤ 1 / max := by positivity
    have h3 : 1 / 2 ^ 53 * (1 / (max : ℝ)) ≤ 1 * (1 / max) := mul_le_mul_of_nonneg_right (by norm_num) h2
    linarith
  have hd0 : 0 ≤ realOf (upper.sub lower) := by
    have := nearest_mono (by linarith : (0 : ℝ) ≤ realOf upper - realOf lower) hz (sub_nearest _ _ b3)
    rwa [realOf_zero] at this
  have m1 : realOf (n.mul oo) ≤ realOf (n'.mul oo) := by
    refine nearest_mono ?_ (mul_nearest _ _ b1) (mul_nearest _ _ b1')
    rw [hnr, hnr']
    exact mul_le_mul_of_nonneg_right (by exact_mod_cast h) hoo0
  have m2 := nearest_mono (mul_le_mul_of_nonneg_right m1 hd0) (mul_nearest _ _ b5) (mul_nearest _ _ b5')
  have m3 := nearest_mono (add_le_add_left m2 (realOf lower)) (add_nearest _ _ b6) (add_nearest _ _ b6')
  have hsnap := snap_mono (realOf ((upper.sub lower).mul oo)) m3
  have push : ∀ W : F64, realOf (if |realOf W| < realOf ((upper.sub lower).mul oo) then 0 else W) =
      if |realOf W| < realOf ((upper.sub lower).mul oo) then 0 else realOf W := by
    intro W
    by_cases hc : |realOf W| < realOf ((upper.sub lower).mul oo)
    · rw [if_pos hc, if_pos hc, realOf_zero]
    · rw [if_neg hc, if_neg hc]
  rw [push, push]
  exact hsnap

theorem packedU16_eq {b : Bytes} {o u : Nat} (hu : U16At b o u) (lower upper : F64) : packedU16ToF64 b o lower upper = .ok (rangeF64 oo16 u lower upper) ∧ u ≤ 65535 := by
  obtain ⟨lo, hi, h, rfl⟩ := hu
  constructor
  · unfold packedU16ToF64
    rw [h]
    have : structUnpack .little .H [lo, hi] = .ok ((lo.toNat + 256 * hi.toNat : Nat) : Int) := by
      simp [structUnpack, IntFmt.size, IntFmt.signed, Endian.order, leVal]
    rw [this]
    rfl
  · have := lo.toNat_lt
    have := hi.toNat_lt
    omega

theorem packedU8_eq {b : Bytes} {o u : Nat} (hu : U8At b o u) (lower upper : F64) : packedU8ToF64 b o lower upper = .ok (rangeF64 oo8 u lower upper) ∧ u ≤ 255 := by
  obtain ⟨c, h, rfl⟩ := hu
  constructor
  · unfold packedU8ToF64
    rw [h]
    have : structUnpack .little .B [c] = .ok ((c.toNat : Nat) : Int) := by
      simp [structUnpack, IntFmt.size, IntFmt.signed, Endian.order, leVal]
    rw [this]
    rfl
  · have := c.toNat_lt
    omega

/-- **C46 on doubles.** For every finite range (up to `2^1000`) and every packed number, the call returns a finite double: the point of the range that the number
denotes, up to `8·2^-53` of the size of the range's ends (and 8 units of least size), or 0 for a point closer to zero than one step. -/
theorem C46_ieee (lower upper : F64) (hlu : realOf lower ≤ realOf upper) (hL : |realOf lower| ≤ 2 ^ 1000) (hU : |realOf upper| ≤ 2 ^ 1000) (b : Bytes) (o u : Nat) :
    (U16At b o u → ∃ x, packedU16ToF64 b o lower upper = .ok x ∧
      DecodedTo (rangePoint 65535 (realOf lower) (realOf upper) u) ((realOf upper - realOf lower) / 65535) (tolerance (realOf lower) (realOf upper)) x) ∧
    (U8At b o u → ∃ x, packedU8ToF64 b o lower upper = .ok x ∧
      DecodedTo (rangePoint 255 (realOf lower) (realOf upper) u) ((realOf upper - realOf lower) / 255) (tolerance (realOf lower) (realOf upper)) x) := by
  constructor
  · intro h
    obtain ⟨e, hu⟩ := packedU16_eq h lower upper
    have := rangeF64_decoded oo16 65535 u lower upper (by decide) (by decide) hu (by exact_mod_cast oo16_rel) hlu hL hU
    exact ⟨_, e, by exact_mod_cast this⟩
  · intro h
    obtain ⟨e, hu⟩ := packedU8_eq h lower upper
    have := rangeF64_decoded oo8 255 u lower upper (by decide) (by decide) hu (by exact_mod_cast oo8_rel) hlu hL hU
    exact ⟨_, e, by exact_mod_cast this⟩

/-- **C46 on doubles, monotone.** A larger packed number never decodes to a smaller double. -/
theorem C46_ieee_monotone (lower upper : F64) (hlu : realOf lower ≤ realOf upper) (hL : |realOf lower| ≤ 2 ^ 1000) (hU : |realOf upper| ≤ 2 ^ 1000)
    (b b' : Bytes) (o o' u u' : Nat) (hle : u ≤ u') :
    (U16At b o u → U16At b' o' u' →
      ∃ x y, packedU16ToF64 b o lower upper = .ok x ∧ packedU16ToF64 b' o' lower upper = .ok y ∧ realOf x ≤ realOf y) ∧
    (U8At b o u → U8At b' o' u' →
      ∃ x y, packedU8ToF64 b o lower upper = .ok x ∧ packedU8ToF64 b' o' lower upper = .ok y ∧ realOf x ≤ realOf y) := by
  constructor
  · intro h h'
    obtain ⟨e, -⟩ := packedU16_eq h lower upper
    obtain ⟨e', hu⟩ := packedU16_eq h' lower upper
    exact ⟨_, _, e, e', rangeF64_mono oo16 65535 u u' lower upper (by decide) (by decide) hu hle (by exact_mod_cast oo16_rel) hlu hL hU⟩
  · intro h h'
    obtain ⟨e, -⟩ := packedU8_eq h lower upper
    obtain ⟨e', hu⟩ := packedU8_eq h' lower upper
    exact ⟨_, _, e, e', rangeF64_mono oo8 255 u u' lower upper (by decide) (by decide) hu hle (by exact_mod_cast oo8_rel) hlu hL hU⟩

/-- **C46 on doubles:** a buffer that ends before the number raises `struct.error`, on both widths. -/
theorem C46_ieee_short (lower upper : F64) (b : Bytes) (o : Nat) :
    (b.length < o + 2 → packedU16ToF64 b o lower upper = .error .structError) ∧ (b.length < o + 1 → packedU8ToF64 b o lower upper = .error .structError) := by
  constructor
  · intro h
    unfold packedU16ToF64 structUnpack
    have : ¬ (slice b o (o + 2)).length = IntFmt.H.size := by
      simp only [slice, List.length_take, List.length_drop, IntFmt.size]
      omega
    simp only [this, if_false]
    rfl
  · intro h
    unfold packedU8ToF64 structUnpack
    have : ¬ (slice b o (o + 1)).length = IntFmt.B.size := by
      simp only [slice, List.length_take, List.length_drop, IntFmt.size]
      omega
    simp only [this, if_false]
    rfl

/-- The velocity range [-128, 128] of an object update, the doubles `0xc060…` and `0x4060…`: the middle decodes to 0, the ends exactly. -/
example : packedU16ToF64 [9, 255, 127] 1 0xc060000000000000#64 0x4060000000000000#64 = .ok 0 ∧
    packedU16ToF64 [0, 0] 0 0xc060000000000000#64 0x4060000000000000#64 = .ok 0xc060000000000000#64 ∧
    packedU16ToF64 [255, 255] 0 0xc060000000000000#64 0x4060000000000000#64 = .ok 0x4060000000000000#64 ∧
    packedU8ToF64 [200] 0 0xc060000000000000#64 0x4060000000000000#64 = .ok 0x4052323232323232#64 := by decide +kernel

/-- These doubles are -128 and 128, a range that the theorems are about. -/
example : realOf 0xc060000000000000#64 = -128 ∧ realOf 0x4060000000000000#64 = 128 ∧ realOf 0xc060000000000000#64 ≤ realOf 0x4060000000000000#64 ∧
    |realOf 0xc060000000000000#64| ≤ 2 ^ 1000 ∧ |realOf 0x4060000000000000#64| ≤ 2 ^ 1000 := by
  have h1 : realOf 0xc060000000000000#64 = -128 := by
    obtain ⟨c, hc⟩ : ∃ c, c = 1074 := ⟨_, rfl⟩
    have hu : F64.units 0xc060000000000000#64 = -(128 * 2 ^ c) := by rw [hc]; decide +kernel
    rw [realOf_units _ hc, hu]
    push_cast
    field_simp
  have h2 : realOf 0x4060000000000000#64 = 128 := by
    obtain ⟨c, hc⟩ : ∃ c, c = 1074 := ⟨_, rfl⟩
    have hu : F64.units 0x4060000000000000#64 = 128 * 2 ^ c := by rw [hc]; decide +kernel
    rw [realOf_units _ hc, hu]
    push_cast
    field_simp
  have hP : (128 : ℝ) ≤ 2 ^ 1000 :=
    calc (128 : ℝ) = 2 ^ 7 := by norm_num
      _ ≤ 2 ^ 1000 := pow_le_pow_right₀ (by norm_num) (by omega)
  rw [h1, h2, abs_neg, abs_of_pos (by norm_num : (0 : ℝ) < 128)]
  exact ⟨rfl, rfl, by norm_num, hP, hP⟩

end Pyogp
