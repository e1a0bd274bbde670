import Verif.Proofs.Rounding
import Verif.Props.Helpers

/-!
# C46 and C08 in floating-point arithmetic

Every operation is the exact operation followed by a rounding `fl` with relative error at most `ε`.  Rounding to nearest with 53 bits (`roundTo 53`) is
such a rounding with `ε = 2⁻⁵³`: these are doubles as long as no intermediate result overflows or is subnormal.
-/

namespace Pyogp
open Spec

section
variable {K : Type} [Field K] [LinearOrder K] [IsStrictOrderedRing K]

theorem fl_rel {fl : K → K} {ε : K} (h : RelError fl ε) {x x' e : K} (hx : |x' - x| ≤ e * |x|) (hε : 0 ≤ ε) :
    |fl x' - x| ≤ (e + ε + e * ε) * |x| := by
  have h1 := h x'
  have h2 : |x'| ≤ |x| + |x' - x| := by
    have := abs_add_le x (x' - x)
    rwa [add_sub_cancel] at this
  have h3 : |fl x' - x| ≤ |fl x' - x'| + |x' - x| := abs_sub_le _ _ _
  have h4 : ε * |x'| ≤ ε * (|x| + e * |x|) := mul_le_mul_of_nonneg_left (by linarith) hε
  calc |fl x' - x| ≤ ε * (|x| + e * |x|) + e * |x| := by linarith
    _ = (e + ε + e * ε) * |x| := by ring

theorem mul_rel {x x' y y' e f : K} (hx : |x' - x| ≤ e * |x|) (hy : |y' - y| ≤ f * |y|) (he : 0 ≤ e) :
    |x' * y' - x * y| ≤ (e + f + e * f) * |x * y| := by
  have h1 : x' * y' - x * y = (x' - x) * (y' - y) + x * (y' - y) + (x' - x) * y := by ring
  rw [h1]
  have h2 : |(x' - x) * (y' - y)| ≤ (e * |x|) * (f * |y|) := by
    rw [abs_mul]; exact mul_le_mul hx hy (abs_nonneg _) (by positivity)
  have h3 : |x * (y' - y)| ≤ |x| * (f * |y|) := by
    rw [abs_mul]; exact mul_le_mul_of_nonneg_left hy (abs_nonneg _)
  have h4 : |(x' - x) * y| ≤ (e * |x|) * |y| := by
    rw [abs_mul]; exact mul_le_mul_of_nonneg_right hx (abs_nonneg _)
  have h5 := abs_add_le ((x' - x) * (y' - y) + x * (y' - y)) ((x' - x) * y)
  have h6 := abs_add_le ((x' - x) * (y' - y)) (x * (y' - y))
  rw [abs_mul]
  calc _ ≤ (e * |x|) * (f * |y|) + |x| * (f * |y|) + (e * |x|) * |y| := by linarith
    _ = (e + f + e * f) * (|x| * |y|) := by ring

/-- Compounded relative errors of three and four roundings. -/
theorem three_four {ε : K} (h0 : 0 ≤ ε) (h1 : ε ≤ 1 / 64) :
    3 * ε + 3 * ε ^ 2 + ε ^ 3 ≤ 5 * ε ∧ 4 * ε + 6 * ε ^ 2 + 4 * ε ^ 3 + ε ^ 4 ≤ 5 * ε := by
  have h2 : ε ^ 2 ≤ ε / 64 := by nlinarith
  have h2' : 0 ≤ ε ^ 2 := sq_nonneg ε
  have h3 : ε ^ 3 ≤ ε / 64 := by
    have : ε ^ 3 = ε ^ 2 * ε := by ring
    rw [this]
    exact (mul_le_of_le_one_right h2' (by linarith)).trans h2
  have h4 : ε ^ 4 ≤ ε / 64 := by
    have : ε ^ 4 = ε ^ 2 * ε ^ 2 := by ring
    rw [this]
    exact (mul_le_of_le_one_right h2' (by linarith)).trans h2
  constructor <;> linarith

theorem scaled_rounded (fl : K → K) (ε : K) (h : RelError fl ε) (h0 : 0 ≤ ε) (h1 : ε ≤ 1 / 64) (a b c : K) (hc : 0 ≤ a * b * c) :
    |fl (fl (a * fl b) * fl c) - a * b * c| ≤ 5 * ε * (a * b * c) := by
  have hid : ∀ x : K, |x - x| ≤ 0 * |x| := by intro x; simp
  have r1 : ∀ x : K, |fl x - x| ≤ ε * |x| := h
  have a2 := mul_rel (hid a) (r1 b) le_rfl
  have a3 := fl_rel h a2 h0
  have a5 := mul_rel a3 (r1 c) (by positivity)
  have a6 := fl_rel h a5 h0
  rw [abs_of_nonneg hc] at a6
  refine a6.trans (mul_le_mul_of_nonneg_right ?_ hc)
  refine le_trans (le_of_eq ?_) (three_four h0 h1).2
  ring

theorem step_rounded (fl : K → K) (ε : K) (h : RelError fl ε) (h0 : 0 ≤ ε) (h1 : ε ≤ 1 / 64) (b c : K) (hc : 0 ≤ c * b) :
    fl (fl c * fl b) ≤ c * b * (1 + 5 * ε) := by
  have r1 : ∀ x : K, |fl x - x| ≤ ε * |x| := h
  have a5 := mul_rel (r1 c) (r1 b) h0
  have a6 := fl_rel h a5 h0
  rw [abs_of_nonneg hc] at a6
  have d2 := le_abs_self (fl (fl c * fl b) - c * b)
  have d3 : (ε + ε + ε * ε + ε + (ε + ε + ε * ε) * ε) * (c * b) ≤ 5 * ε * (c * b) := by
    refine mul_le_mul_of_nonneg_right (le_trans (le_of_eq ?_) (three_four h0 h1).1) hc
    ring
  have d4 : c * b * (1 + 5 * ε) = c * b + 5 * ε * (c * b) := by ring
  linarith

/-- The arithmetic of `packed_u16_to_float` and `packed_u8_to_float` under rounding. -/
theorem unpackRange_rounded (fl : K → K) (ε : K) (h : RelError fl ε) (h0 : 0 ≤ ε) (h1 : ε ≤ 1 / 64) (max : K) (hmax : 0 < max) (u : Nat)
    (hu : (u : K) ≤ max) (lower upper : K) (hl : lower ≤ upper) :
    |unpackRange fl max u lower upper - rangePoint max lower upper u| ≤ 7 * ε * (|lower| + |upper|) ∨
    (unpackRange fl max u lower upper = 0 ∧
      |rangePoint max lower upper u| ≤ (upper - lower) / max * (1 + 5 * ε) + 7 * ε * (|lower| + |upper|)) := by
  have hS0 : 0 ≤ |lower| + |upper| := by positivity
  have hΔ0 : 0 ≤ upper - lower := by linarith
  have hΔ : upper - lower ≤ |lower| + |upper| := by
    have := neg_abs_le lower; have := le_abs_self upper; linarith
  have hP0 : 0 ≤ (u : K) * (1 / max) * (upper - lower) := by positivity
  have hP : (u : K) * (1 / max) * (upper - lower) ≤ upper - lower := by
    have : (u : K) * (1 / max) ≤ 1 := by rw [mul_one_div, div_le_one hmax]; exact hu
    exact mul_le_of_le_one_left hΔ0 this
  have e6 := scaled_rounded fl ε h h0 h1 u (1 / max) (upper - lower) hP0
  have hpt : rangePoint max lower upper u = u * (1 / max) * (upper - lower) + lower := by
    unfold rangePoint
    rw [mul_one_div]
    ring
  have hptS : |rangePoint max lower upper u| ≤ |lower| + |upper| := by
    rw [hpt, abs_le]
    have := neg_abs_le lower; have := le_abs_self upper; have := abs_nonneg upper; have := abs_nonneg lower; have := le_abs_self lower
    constructor <;> linarith
  have e7 : |fl (fl (u * fl (1 / max)) * fl (upper - lower)) + lower - rangePoint max lower upper u| ≤ 5 * ε * (|lower| + |upper|) := by
    rw [hpt, add_sub_add_right_eq_sub]
    exact e6.trans (mul_le_mul_of_nonneg_left (by linarith) (by linarith))
  have hstep := step_rounded fl ε h h0 h1 (1 / max) (upper - lower) (by positivity)
  rw [mul_one_div] at hstep
  have hU : unpackRange fl max u lower upper = if |fl (fl (fl (u * fl (1 / max)) * fl (upper - lower)) + lower)| <
    fl (fl (upper - lower) * fl (1 / max)) then 0 else fl (fl (fl (u * fl (1 / max)) * fl (upper - lower)) + lower) := rfl
  rw [hU]
  generalize fl (fl (upper - lower) * fl (1 / max)) = me at *
  generalize fl (fl (u * fl (1 / max)) * fl (upper - lower)) + lower = v at *
  generalize rangePoint max lower upper u = pt at *
  generalize |lower| + |upper| = S at *
  have e8 : |fl v - pt| ≤ 7 * ε * S := by
    have c1 := h v
    have c2 : |v| ≤ |pt| + |v - pt| := by
      have := abs_add_le pt (v - pt)
      rwa [add_sub_cancel] at this
    have c3 := abs_sub_le (fl v) v pt
    have c4 : ε * |v| ≤ ε * (S + 5 * ε * S) := mul_le_mul_of_nonneg_left (by linarith) h0
    have c6 : 0 ≤ ε * S := mul_nonneg h0 hS0
    have c5 : ε * (ε * S) ≤ 1 / 64 * (ε * S) := mul_le_mul_of_nonneg_right h1 c6
    have c7 : ε * (S + 5 * ε * S) = ε * S + 5 * (ε * (ε * S)) := by ring
    linarith
  by_cases hlt : |fl v| < me
  · rw [if_pos hlt]
    refine .inr ⟨rfl, ?_⟩
    have := abs_sub_abs_le_abs_sub pt (fl v)
    rw [abs_sub_comm] at e8
    linarith
  · rw [if_neg hlt]; exact .inl e8

/-- **C46, floating point.** With rounded arithmetic the result is the point of the range that the number denotes up to a few rounding errors of the
ends of the range, or zero, and then that point is closer to zero than one step (up to rounding). -/
theorem C46_rounded (fl : K → K) (ε : K) (h : RelError fl ε) (h0 : 0 ≤ ε) (h1 : ε ≤ 1 / 64) (b : Bytes) (o u : Nat) (lower upper : K)
    (hl : lower ≤ upper) :
    (U16At b o u → ∃ x, packedU16ToFloat fl b o lower upper = .ok x ∧
      (|x - rangePoint 65535 lower upper u| ≤ 7 * ε * (|lower| + |upper|) ∨
       x = 0 ∧ |rangePoint 65535 lower upper u| ≤ (upper - lower) / 65535 * (1 + 5 * ε) + 7 * ε * (|lower| + |upper|))) ∧
    (U8At b o u → ∃ x, packedU8ToFloat fl b o lower upper = .ok x ∧
      (|x - rangePoint 255 lower upper u| ≤ 7 * ε * (|lower| + |upper|) ∨
       x = 0 ∧ |rangePoint 255 lower upper u| ≤ (upper - lower) / 255 * (1 + 5 * ε) + 7 * ε * (|lower| + |upper|))) := by
  constructor
  · rintro ⟨lo, hi, hb, rfl⟩
    refine ⟨_, unpack_u16 lo hi b o hb fl lower upper, unpackRange_rounded fl ε h h0 h1 65535 (by norm_num) _ ?_ lower upper hl⟩
    have := lo.toNat_lt
    have := hi.toNat_lt
    have h2 : lo.toNat + 256 * hi.toNat ≤ 65535 := by omega
    exact_mod_cast h2
  · rintro ⟨c, hb, rfl⟩
    refine ⟨_, unpack_u8 c b o hb fl lower upper, unpackRange_rounded fl ε h h0 h1 255 (by norm_num) _ ?_ lower upper hl⟩
    have := c.toNat_lt
    have h2 : c.toNat ≤ 255 := by omega
    exact_mod_cast h2

/-- **C46, doubles.** The instance for rounding to 53 bits: the result is within `7·2⁻⁵³·(|lower| + |upper|)` of the point denoted, or zero. -/
theorem C46_double [FloorRing K] (b : Bytes) (o u : Nat) (lower upper : K) (hl : lower ≤ upper) (hu : U16At b o u) :
    ∃ x, packedU16ToFloat (roundTo 53) b o lower upper = .ok x ∧
      (|x - rangePoint 65535 lower upper u| ≤ 7 * (1 / 2 ^ 53) * (|lower| + |upper|) ∨
       x = 0 ∧ |rangePoint 65535 lower upper u| ≤ (upper - lower) / 65535 * (1 + 5 * (1 / 2 ^ 53)) + 7 * (1 / 2 ^ 53) * (|lower| + |upper|)) :=
  (C46_rounded (roundTo 53) (1 / 2 ^ 53) (roundTo_relError 53) (by positivity) (by norm_num) b o u lower upper hl).1 hu

/-- **C46, doubles, monotone.** -/
theorem C46_double_monotone [FloorRing K] (lower upper : K) (h : lower ≤ upper) (b b' : Bytes) (o o' u u' : Nat)
    (hu : U16At b o u) (hu' : U16At b' o' u') (hle : u ≤ u') :
    ∃ x y, packedU16ToFloat (roundTo 53) b o lower upper = .ok x ∧ packedU16ToFloat (roundTo 53) b' o' lower upper = .ok y ∧ x ≤ y :=
  C46_u16_monotone (roundTo 53) (roundTo_mono 53 (by norm_num)) (roundTo_zero 53) lower upper h b b' o o' u u' hu hu' hle

end

/-- **C46, consequence:** with doubles the largest packed value can decode to a number above `upper` (by a rounding error), also for ends of the range that
are doubles. -/
theorem C46_rounding_leaves_range : ∃ lower upper x : ℚ, roundTo 53 lower = lower ∧ roundTo 53 upper = upper ∧ lower < upper ∧
    packedU8ToFloat (roundTo 53) [255] 0 lower upper = .ok x ∧ upper < x :=
  ⟨-1, 1 / 2 + 3 / 2 ^ 53, 1 / 2 + 4 / 2 ^ 53, by decide +kernel, by decide +kernel, by decide +kernel, by decide +kernel, by decide +kernel⟩

/-! ## C08 -/

/-- Rounded sum of three squares, and what is left to 1. -/
theorem rest_rounded (fl : ℝ → ℝ) (ε : ℝ) (h1 : ε ≤ 1 / 64) (h : ∀ x, |x| ≤ 4 → |fl x - x| ≤ ε) (x y z : ℝ)
    (hx : x * x + y * y + z * z ≤ 3 / 2) :
    |fl (1 - fl (fl (fl (x * x) + fl (y * y)) + fl (z * z))) - (1 - (x * x + y * y + z * z))| ≤ 6 * ε := by
  have hxx := mul_self_nonneg x
  have hyy := mul_self_nonneg y
  have hzz := mul_self_nonneg z
  generalize x * x = a at *
  generalize y * y = b at *
  generalize z * z = c at *
  have a1 := abs_le.mp (h a (by rw [abs_le]; constructor <;> linarith))
  have a2 := abs_le.mp (h b (by rw [abs_le]; constructor <;> linarith))
  have a3 := abs_le.mp (h c (by rw [abs_le]; constructor <;> linarith))
  have a4 := abs_le.mp (h (fl a + fl b) (by rw [abs_le]; constructor <;> linarith))
  have a5 := abs_le.mp (h (fl (fl a + fl b) + fl c) (by rw [abs_le]; constructor <;> linarith))
  have a6 := abs_le.mp (h (1 - fl (fl (fl a + fl b) + fl c)) (by rw [abs_le]; constructor <;> linarith))
  rw [abs_le]
  constructor <;> linarith

theorem sq_close {x x' δ : ℝ} (h : |x' - x| ≤ δ) : |x' * x' - x * x| ≤ δ * (2 * |x| + δ) := by
  have e : x' * x' - x * x = (x' - x) * (x' - x) + 2 * (x * (x' - x)) := by ring
  have h0 : 0 ≤ δ := (abs_nonneg _).trans h
  rw [e]
  have h1 : |(x' - x) * (x' - x)| ≤ δ * δ := by
    rw [abs_mul]; exact mul_le_mul h h (abs_nonneg _) h0
  have h2 : |2 * (x * (x' - x))| ≤ 2 * (|x| * δ) := by
    rw [abs_mul, abs_mul, abs_of_pos (by norm_num : (0 : ℝ) < 2)]
    exact mul_le_mul_of_nonneg_left (mul_le_mul_of_nonneg_left h (abs_nonneg _)) (by norm_num)
  have h3 := abs_add_le ((x' - x) * (x' - x)) (2 * (x * (x' - x)))
  linarith

/-- The part of C08 about `W`: from components within `δ` of those of a quaternion that is a unit up to `η`, a computed rest `t` within `6ε` of the exact one
and a computed root within `ε` of the exact one. -/
theorem W_close (δ ε η : ℝ) (hδ0 : 0 ≤ δ) (hδ : δ ≤ 1 / 64) (hε0 : 0 ≤ ε) (hε : ε ≤ 1 / 64) (hη : η ≤ 1 / 64)
    (x y z w x' y' z' t W : ℝ)
    (hx : |x' - x| ≤ δ) (hy : |y' - y| ≤ δ) (hz : |z' - z| ≤ δ) (hu : |x * x + y * y + z * z + w * w - 1| ≤ η)
    (hT : x' * x' + y' * y' + z' * z' ≤ 3 / 2 → |t - (1 - (x' * x' + y' * y' + z' * z'))| ≤ 6 * ε)
    (hpos : 0 < t → t ≤ 25 / 16 → 0 ≤ W ∧ |W - Real.sqrt t| ≤ ε) (hneg : t ≤ 0 → W = 0) :
    0 ≤ W ∧ |W ^ 2 - w ^ 2| ≤ η + 4 * δ + 9 * ε := by
  have hu' := abs_le.mp hu
  have sx := abs_le.mp (sq_close hx)
  have sy := abs_le.mp (sq_close hy)
  have sz := abs_le.mp (sq_close hz)
  have hw := mul_self_nonneg w
  have habs : |x| + |y| + |z| ≤ 7 / 4 := by
    have h3 : (|x| + |y| + |z|) ^ 2 ≤ 3 * (x * x + y * y + z * z) := by
      have e1 := abs_mul_abs_self x
      have e2 := abs_mul_abs_self y
      have e3 := abs_mul_abs_self z
      nlinarith [sq_nonneg (|x| - |y|), sq_nonneg (|y| - |z|), sq_nonneg (|x| - |z|)]
    have h4 : (|x| + |y| + |z|) ^ 2 ≤ (7 / 4) ^ 2 := by
      refine h3.trans ?_
      norm_num
      linarith
    exact le_of_sq_le_sq h4 (by norm_num)
  have hsum : δ * (2 * |x| + δ) + δ * (2 * |y| + δ) + δ * (2 * |z| + δ) ≤ 4 * δ := by
    have e : δ * (2 * |x| + δ) + δ * (2 * |y| + δ) + δ * (2 * |z| + δ) = δ * (2 * (|x| + |y| + |z|) + 3 * δ) := by ring
    rw [e, mul_comm 4 δ]
    exact mul_le_mul_of_nonneg_left (by linarith) hδ0
  have hs' : x' * x' + y' * y' + z' * z' ≤ 3 / 2 := by linarith
  have ht := abs_le.mp (hT hs')
  have hlo : -(η + 4 * δ + 6 * ε) ≤ t - w * w := by linarith
  have hhi : t - w * w ≤ η + 4 * δ + 6 * ε := by linarith
  rcases lt_or_ge 0 t with h0 | h0
  · have hsq : Real.sqrt t * Real.sqrt t = t := Real.mul_self_sqrt h0.le
    have hs0 := Real.sqrt_nonneg t
    have ht1 : t ≤ 25 / 16 := by linarith [mul_self_nonneg x', mul_self_nonneg y', mul_self_nonneg z']
    have hs1 : Real.sqrt t ≤ 5 / 4 := by
      rw [Real.sqrt_le_left (by norm_num)]
      norm_num
      exact ht1
    obtain ⟨hW0, hr⟩ := hpos h0 ht1
    refine ⟨hW0, ?_⟩
    have h5 := abs_le.mp (sq_close hr)
    rw [abs_of_nonneg hs0, hsq] at h5
    have h6 : ε * (2 * Real.sqrt t + ε) ≤ ε * 3 := mul_le_mul_of_nonneg_left (by linarith) hε0
    rw [abs_le, pow_two, pow_two]
    constructor <;> linarith
  · rw [hneg h0]
    refine ⟨le_rfl, ?_⟩
    rw [abs_le, pow_two, pow_two]
    constructor <;> linarith

theorem W_rounded (fl : ℝ → ℝ) (δ ε η : ℝ) (hδ0 : 0 ≤ δ) (hδ : δ ≤ 1 / 64) (hε0 : 0 ≤ ε) (hε : ε ≤ 1 / 64) (hη : η ≤ 1 / 64)
    (hf : ∀ x, |x| ≤ 4 → |fl x - x| ≤ ε) (hnn : ∀ x, 0 ≤ x → 0 ≤ fl x) (x y z w x' y' z' : ℝ)
    (hx : |x' - x| ≤ δ) (hy : |y' - y| ≤ δ) (hz : |z' - z| ≤ δ) (hu : |x * x + y * y + z * z + w * w - 1| ≤ η) :
    0 ≤ reconstructWith fl x' y' z' ∧ |reconstructWith fl x' y' z' ^ 2 - w ^ 2| ≤ η + 4 * δ + 9 * ε := by
  refine W_close δ ε η hδ0 hδ hε0 hε hη x y z w x' y' z' _ _ hx hy hz hu (rest_rounded fl ε hε hf x' y' z') ?_ ?_
  · intro h0 h1
    unfold reconstructWith
    simp only
    rw [if_pos h0]
    have hs1 : Real.sqrt (fl (1 - fl (fl (fl (x' * x') + fl (y' * y')) + fl (z' * z')))) ≤ 4 := by
      rw [Real.sqrt_le_left (by norm_num)]
      norm_num
      linarith
    exact ⟨hnn _ (Real.sqrt_nonneg _), hf _ (by rw [abs_of_nonneg (Real.sqrt_nonneg _)]; exact hs1)⟩
  · intro h0
    unfold reconstructWith
    simp only
    rw [if_neg (not_lt.mpr h0)]

/-- **C08, floating point.** Let the components be rounded to single precision when packed (`sg`, error at most `δ` for numbers up to 2) and the operations
when unpacking be rounded (`fl`, error at most `ε` for numbers up to 4).  A quaternion that is a unit up to `η` is received with each of
`X`, `Y`, `Z` within `δ` of that of the quaternion or, if `W` is negative, of its negation, and with `W ≥ 0` whose square is within
`η + 4δ + 9ε` of the square of the original: the same rotation up to these errors. -/
theorem C08_rounded (sg fl : ℝ → ℝ) (δ ε η : ℝ) (hδ0 : 0 ≤ δ) (hδ : δ ≤ 1 / 64) (hε0 : 0 ≤ ε) (hε : ε ≤ 1 / 64) (hη : η ≤ 1 / 64)
    (hs : ∀ x, |x| ≤ 2 → |sg x - x| ≤ δ) (hf : ∀ x, |x| ≤ 4 → |fl x - x| ≤ ε) (hnn : ∀ x, 0 ≤ x → 0 ≤ fl x)
    (x y z w : ℝ) (hu : |x * x + y * y + z * z + w * w - 1| ≤ η) :
    ∃ a b c W, packQuaternionToVector3 x y z w = (a, b, c) ∧ reconstructWith fl (sg a) (sg b) (sg c) = W ∧
      ((0 ≤ w ∧ |sg a - x| ≤ δ ∧ |sg b - y| ≤ δ ∧ |sg c - z| ≤ δ) ∨ (w < 0 ∧ |sg a - -x| ≤ δ ∧ |sg b - -y| ≤ δ ∧ |sg c - -z| ≤ δ)) ∧
      0 ≤ W ∧ |W ^ 2 - w ^ 2| ≤ η + 4 * δ + 9 * ε := by
  have hu' := abs_le.mp hu
  have hxx := mul_self_nonneg x
  have hyy := mul_self_nonneg y
  have hzz := mul_self_nonneg z
  have hww := mul_self_nonneg w
  have bound : ∀ v : ℝ, v * v ≤ 4 → |v| ≤ 2 := by
    intro v hv
    rw [abs_le]
    constructor <;> nlinarith
  have bx := bound x (by linarith)
  have bY := bound y (by linarith)
  have bz := bound z (by linarith)
  by_cases hw : 0 ≤ w
  · refine ⟨x, y, z, _, by simp [packQuaternionToVector3, hw], rfl, .inl ⟨hw, hs x bx, hs y bY, hs z bz⟩, ?_⟩
    exact W_rounded fl δ ε η hδ0 hδ hε0 hε hη hf hnn x y z w _ _ _ (hs x bx) (hs y bY) (hs z bz) hu
  · have nx := hs (-x) (by rwa [abs_neg])
    have ny := hs (-y) (by rwa [abs_neg])
    have nz := hs (-z) (by rwa [abs_neg])
    refine ⟨-x, -y, -z, _, by simp [packQuaternionToVector3, hw], rfl, .inr ⟨not_le.mp hw, nx, ny, nz⟩, ?_⟩
    exact W_rounded fl δ ε η hδ0 hδ hε0 hε hη hf hnn (-x) (-y) (-z) w _ _ _ nx ny nz (by simpa using hu)

/-- Rounding to `p` bits meets the hypotheses of `C08_rounded`: with 24 bits `δ = 2⁻²³`, with 53 bits `ε = 2⁻⁵¹`. -/
theorem roundTo_abs (p k : ℕ) (hk : k ≤ p) (x : ℝ) (hx : |x| ≤ 2 ^ k) : |roundTo p x - x| ≤ 1 / 2 ^ (p - k) := by
  have h := roundTo_relError p x
  obtain ⟨q, rfl⟩ : ∃ q, p = q + k := ⟨p - k, by omega⟩
  rw [Nat.add_sub_cancel]
  refine h.trans ?_
  have h2 : (0 : ℝ) ≤ 1 / 2 ^ (q + k) := by positivity
  refine (mul_le_mul_of_nonneg_left hx h2).trans (le_of_eq ?_)
  rw [pow_add]
  field_simp

/-- **C08, singles on the wire, double arithmetic.** The instance for IEEE roundings: `X`, `Y`, `Z` within `2⁻²³`, the square of `W` within `2⁻²⁰` of the
original for a quaternion that is a unit up to `2⁻²²`. -/
theorem C08_single (x y z w : ℝ) (hu : |x * x + y * y + z * z + w * w - 1| ≤ 1 / 2 ^ 22) :
    ∃ a b c W, packQuaternionToVector3 x y z w = (a, b, c) ∧
      reconstructWith (roundTo 53) (roundTo 24 a) (roundTo 24 b) (roundTo 24 c) = W ∧
      ((0 ≤ w ∧ |roundTo 24 a - x| ≤ 1 / 2 ^ 23 ∧ |roundTo 24 b - y| ≤ 1 / 2 ^ 23 ∧ |roundTo 24 c - z| ≤ 1 / 2 ^ 23) ∨
       (w < 0 ∧ |roundTo 24 a - -x| ≤ 1 / 2 ^ 23 ∧ |roundTo 24 b - -y| ≤ 1 / 2 ^ 23 ∧ |roundTo 24 c - -z| ≤ 1 / 2 ^ 23)) ∧
      0 ≤ W ∧ |W ^ 2 - w ^ 2| ≤ 1 / 2 ^ 20 := by
  obtain ⟨a, b, c, W, h1, h2, h3, h4, h5⟩ := C08_rounded (roundTo 24) (roundTo 53) (1 / 2 ^ 23) (1 / 2 ^ 51) (1 / 2 ^ 22) (by positivity) (by norm_num)
    (by positivity) (by norm_num) (by norm_num) (fun v hv => roundTo_abs 24 1 (by norm_num) v (by simpa using hv))
    (fun v hv => roundTo_abs 53 2 (by norm_num) v (by norm_num; exact hv)) (fun v hv => roundTo_nonneg 53 hv) x y z w hu
  refine ⟨a, b, c, W, h1, h2, h3, h4, h5.trans ?_⟩
  norm_num

/-- The hypotheses are met by a quaternion whose components are not singles, with negative `W`. -/
example : |(0 : ℝ) * 0 + (3 / 5) * (3 / 5) + 0 * 0 + (-4 / 5) * (-4 / 5) - 1| ≤ 1 / 2 ^ 22 := by norm_num

/-- `C46_double` on a concrete buffer: 2¹⁵ in the range [-64, 64] denotes a point within a step of zero and decodes to zero, 2¹⁵ + 256 does not. -/
example : packedU16ToFloat (roundTo 53) [0, 128] 0 (-64 : ℚ) 64 = .ok 0 ∧ U16At [0, 128] 0 32768 := ⟨by decide +kernel, 0, 128, rfl, rfl⟩
example : ∃ x : ℚ, packedU16ToFloat (roundTo 53) [0, 129] 0 (-64 : ℚ) 64 = .ok x ∧ 1 / 2 < x ∧ x < 1 / 2 + 1 / 512 := by
  have : (match packedU16ToFloat (roundTo 53) [0, 129] 0 (-64 : ℚ) 64 with | .ok x => decide (1 / 2 < x ∧ x < 1 / 2 + 1 / 512) | _ => false) = true := by
    decide +kernel
  revert this
  cases packedU16ToFloat (roundTo 53) [0, 129] 0 (-64 : ℚ) 64 with
  | ok x => intro h; exact ⟨x, rfl, of_decide_eq_true h⟩
  | error e => intro h; cases h

end Pyogp
